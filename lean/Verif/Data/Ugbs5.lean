import Verif.Lemmas.UgbsScan

/-! Copy of /repo/bfit/data/ygbs, generated by tools/gendata.py. -/

namespace BFit.Data

/-- `Au` in `data/ygbs`. -/
noncomputable def ugbs_au : UBlock := ⟨79, chars! "Au", [('S', 32, 32), ('P', 24, 22), ('D', 20, 18), ('F', 16, 12)], [
  chars! "#BASIS SET: (32s,22p,18d,12f)\n",
  chars! "Au    S\n",
  chars! " 43662492.6604555            1.0000000\n",
  chars! "Au    S\n",
  chars! " 22297831.7330222            1.0000000\n",
  chars! "Au    S\n",
  chars! " 11387194.5850786            1.0000000\n",
  chars! "Au    S\n",
  chars! " 5815282.94190191            1.0000000\n",
  chars! "Au    S\n",
  chars! " 2969784.65079438            1.0000000\n",
  chars! "Au    S\n",
  chars! " 1516627.98873367            1.0000000\n",
  chars! "Au    S\n",
  chars! " 774520.959152738            1.0000000\n",
  chars! "Au    S\n",
  chars! " 395537.152566831            1.0000000\n",
  chars! "Au    S\n",
  chars! " 201995.358823884            1.0000000\n",
  chars! "Au    S\n",
  chars! " 103156.238855453            1.0000000\n",
  chars! "Au    S\n",
  chars! "  52680.4659115021           1.0000000\n",
  chars! "Au    S\n",
  chars! "  26903.1860742976           1.0000000\n",
  chars! "Au    S\n",
  chars! "  13739.0854166734           1.0000000\n",
  chars! "Au    S\n",
  chars! "   7016.36109438299          1.0000000\n",
  chars! "Au    S\n",
  chars! "   3583.15866840946          1.0000000\n",
  chars! "Au    S\n",
  chars! "   1829.86962476550          1.0000000\n",
  chars! "Au    S\n",
  chars! "    934.489134729210         1.0000000\n",
  chars! "Au    S\n",
  chars! "    477.230689612032         1.0000000\n",
  chars! "Au    S\n",
  chars! "    243.715119463182         1.0000000\n",
  chars! "Au    S\n",
  chars! "    124.461944187287         1.0000000\n",
  chars! "Au    S\n",
  chars! "     63.5609952513411        1.0000000\n",
  chars! "Au    S\n",
  chars! "     32.4597220758638        1.0000000\n",
  chars! "Au    S\n",
  chars! "     16.5767315800501        1.0000000\n",
  chars! "Au    S\n",
  chars! "      8.46550778330153       1.0000000\n",
  chars! "Au    S\n",
  chars! "      4.32321786011102       1.0000000\n",
  chars! "Au    S\n",
  chars! "      2.20780762884063       1.0000000\n",
  chars! "Au    S\n",
  chars! "      1.12749685157938       1.0000000\n",
  chars! "Au    S\n",
  chars! "      0.575797063890464            1.0000000\n",
  chars! "Au    S\n",
  chars! "      0.294051604951678            1.0000000\n",
  chars! "Au    S\n",
  chars! "      0.150168091845475            1.0000000\n",
  chars! "Au    S\n",
  chars! "      7.668876968794858E-002            1.0000000\n",
  chars! "Au    S\n",
  chars! "      3.916389509898707E-002            1.0000000\n",
  chars! "Au    P\n",
  chars! " 201995.358823884            1.0000000\n",
  chars! "Au    P\n",
  chars! " 103156.238855453            1.0000000\n",
  chars! "Au    P\n",
  chars! "  52680.4659115021           1.0000000\n",
  chars! "Au    P\n",
  chars! "  26903.1860742975           1.0000000\n",
  chars! "Au    P\n",
  chars! "  13739.0854166734           1.0000000\n",
  chars! "Au    P\n",
  chars! "   7016.36109438299          1.0000000\n",
  chars! "Au    P\n",
  chars! "   3583.15866840945          1.0000000\n",
  chars! "Au    P\n",
  chars! "   1829.86962476550          1.0000000\n",
  chars! "Au    P\n",
  chars! "    934.489134729210         1.0000000\n",
  chars! "Au    P\n",
  chars! "    477.230689612032         1.0000000\n",
  chars! "Au    P\n",
  chars! "    243.715119463182         1.0000000\n",
  chars! "Au    P\n",
  chars! "    124.461944187287         1.0000000\n",
  chars! "Au    P\n",
  chars! "     63.5609952513411        1.0000000\n",
  chars! "Au    P\n",
  chars! "     32.4597220758638        1.0000000\n",
  chars! "Au    P\n",
  chars! "     16.5767315800501        1.0000000\n",
  chars! "Au    P\n",
  chars! "      8.46550778330153       1.0000000\n",
  chars! "Au    P\n",
  chars! "      4.32321786011102       1.0000000\n",
  chars! "Au    P\n",
  chars! "      2.20780762884063       1.0000000\n",
  chars! "Au    P\n",
  chars! "      1.12749685157938       1.0000000\n",
  chars! "Au    P\n",
  chars! "      0.575797063890464            1.0000000\n",
  chars! "Au    P\n",
  chars! "      0.294051604951678            1.0000000\n",
  chars! "Au    P\n",
  chars! "      0.150168091845475            1.0000000\n",
  chars! "Au    D\n",
  chars! "  13739.0854166734           1.0000000\n",
  chars! "Au    D\n",
  chars! "   7016.36109438299          1.0000000\n",
  chars! "Au    D\n",
  chars! "   3583.15866840945          1.0000000\n",
  chars! "Au    D\n",
  chars! "   1829.86962476550          1.0000000\n",
  chars! "Au    D\n",
  chars! "    934.489134729210         1.0000000\n",
  chars! "Au    D\n",
  chars! "    477.230689612032         1.0000000\n",
  chars! "Au    D\n",
  chars! "    243.715119463182         1.0000000\n",
  chars! "Au    D\n",
  chars! "    124.461944187287         1.0000000\n",
  chars! "Au    D\n",
  chars! "     63.5609952513411        1.0000000\n",
  chars! "Au    D\n",
  chars! "     32.4597220758638        1.0000000\n",
  chars! "Au    D\n",
  chars! "     16.5767315800501        1.0000000\n",
  chars! "Au    D\n",
  chars! "      8.46550778330153       1.0000000\n",
  chars! "Au    D\n",
  chars! "      4.32321786011102       1.0000000\n",
  chars! "Au    D\n",
  chars! "      2.20780762884063       1.0000000\n",
  chars! "Au    D\n",
  chars! "      1.12749685157938       1.0000000\n",
  chars! "Au    D\n",
  chars! "      0.575797063890464            1.0000000\n",
  chars! "Au    D\n",
  chars! "      0.294051604951678            1.0000000\n",
  chars! "Au    D\n",
  chars! "      0.150168091845475            1.0000000\n",
  chars! "Au    F\n",
  chars! "    934.489134729210         1.0000000\n",
  chars! "Au    F\n",
  chars! "    477.230689612032         1.0000000\n",
  chars! "Au    F\n",
  chars! "    243.715119463182         1.0000000\n",
  chars! "Au    F\n",
  chars! "    124.461944187287         1.0000000\n",
  chars! "Au    F\n",
  chars! "     63.5609952513411        1.0000000\n",
  chars! "Au    F\n",
  chars! "     32.4597220758638        1.0000000\n",
  chars! "Au    F\n",
  chars! "     16.5767315800501        1.0000000\n",
  chars! "Au    F\n",
  chars! "      8.46550778330153       1.0000000\n",
  chars! "Au    F\n",
  chars! "      4.32321786011102       1.0000000\n",
  chars! "Au    F\n",
  chars! "      2.20780762884063       1.0000000\n",
  chars! "Au    F\n",
  chars! "      1.12749685157938       1.0000000\n",
  chars! "Au    F\n",
  chars! "      0.575797063890464            1.0000000\n"]⟩

theorem ugbs_au_ok : ugbs_au.ok = true := by decide +kernel

/-- `Hg` in `data/ygbs`. -/
noncomputable def ugbs_hg : UBlock := ⟨80, chars! "Hg", [('S', 32, 32), ('P', 25, 23), ('D', 19, 17), ('F', 17, 13)], [
  chars! "#BASIS SET: (32s,23p,17d,13f)\n",
  chars! "Hg    S\n",
  chars! " 43662492.6604555            1.0000000\n",
  chars! "Hg    S\n",
  chars! " 22297831.7330222            1.0000000\n",
  chars! "Hg    S\n",
  chars! " 11387194.5850786            1.0000000\n",
  chars! "Hg    S\n",
  chars! " 5815282.94190191            1.0000000\n",
  chars! "Hg    S\n",
  chars! " 2969784.65079438            1.0000000\n",
  chars! "Hg    S\n",
  chars! " 1516627.98873367            1.0000000\n",
  chars! "Hg    S\n",
  chars! " 774520.959152738            1.0000000\n",
  chars! "Hg    S\n",
  chars! " 395537.152566831            1.0000000\n",
  chars! "Hg    S\n",
  chars! " 201995.358823884            1.0000000\n",
  chars! "Hg    S\n",
  chars! " 103156.238855453            1.0000000\n",
  chars! "Hg    S\n",
  chars! "  52680.4659115021           1.0000000\n",
  chars! "Hg    S\n",
  chars! "  26903.1860742976           1.0000000\n",
  chars! "Hg    S\n",
  chars! "  13739.0854166734           1.0000000\n",
  chars! "Hg    S\n",
  chars! "   7016.36109438299          1.0000000\n",
  chars! "Hg    S\n",
  chars! "   3583.15866840946          1.0000000\n",
  chars! "Hg    S\n",
  chars! "   1829.86962476550          1.0000000\n",
  chars! "Hg    S\n",
  chars! "    934.489134729210         1.0000000\n",
  chars! "Hg    S\n",
  chars! "    477.230689612032         1.0000000\n",
  chars! "Hg    S\n",
  chars! "    243.715119463182         1.0000000\n",
  chars! "Hg    S\n",
  chars! "    124.461944187287         1.0000000\n",
  chars! "Hg    S\n",
  chars! "     63.5609952513411        1.0000000\n",
  chars! "Hg    S\n",
  chars! "     32.4597220758638        1.0000000\n",
  chars! "Hg    S\n",
  chars! "     16.5767315800501        1.0000000\n",
  chars! "Hg    S\n",
  chars! "      8.46550778330153       1.0000000\n",
  chars! "Hg    S\n",
  chars! "      4.32321786011102       1.0000000\n",
  chars! "Hg    S\n",
  chars! "      2.20780762884063       1.0000000\n",
  chars! "Hg    S\n",
  chars! "      1.12749685157938       1.0000000\n",
  chars! "Hg    S\n",
  chars! "      0.575797063890464            1.0000000\n",
  chars! "Hg    S\n",
  chars! "      0.294051604951678            1.0000000\n",
  chars! "Hg    S\n",
  chars! "      0.150168091845475            1.0000000\n",
  chars! "Hg    S\n",
  chars! "      7.668876968794858E-002            1.0000000\n",
  chars! "Hg    S\n",
  chars! "      3.916389509898707E-002            1.0000000\n",
  chars! "Hg    P\n",
  chars! " 395537.152566831            1.0000000\n",
  chars! "Hg    P\n",
  chars! " 201995.358823884            1.0000000\n",
  chars! "Hg    P\n",
  chars! " 103156.238855453            1.0000000\n",
  chars! "Hg    P\n",
  chars! "  52680.4659115021           1.0000000\n",
  chars! "Hg    P\n",
  chars! "  26903.1860742975           1.0000000\n",
  chars! "Hg    P\n",
  chars! "  13739.0854166734           1.0000000\n",
  chars! "Hg    P\n",
  chars! "   7016.36109438299          1.0000000\n",
  chars! "Hg    P\n",
  chars! "   3583.15866840945          1.0000000\n",
  chars! "Hg    P\n",
  chars! "   1829.86962476550          1.0000000\n",
  chars! "Hg    P\n",
  chars! "    934.489134729210         1.0000000\n",
  chars! "Hg    P\n",
  chars! "    477.230689612032         1.0000000\n",
  chars! "Hg    P\n",
  chars! "    243.715119463182         1.0000000\n",
  chars! "Hg    P\n",
  chars! "    124.461944187287         1.0000000\n",
  chars! "Hg    P\n",
  chars! "     63.5609952513411        1.0000000\n",
  chars! "Hg    P\n",
  chars! "     32.4597220758638        1.0000000\n",
  chars! "Hg    P\n",
  chars! "     16.5767315800501        1.0000000\n",
  chars! "Hg    P\n",
  chars! "      8.46550778330153       1.0000000\n",
  chars! "Hg    P\n",
  chars! "      4.32321786011102       1.0000000\n",
  chars! "Hg    P\n",
  chars! "      2.20780762884063       1.0000000\n",
  chars! "Hg    P\n",
  chars! "      1.12749685157938       1.0000000\n",
  chars! "Hg    P\n",
  chars! "      0.575797063890464            1.0000000\n",
  chars! "Hg    P\n",
  chars! "      0.294051604951678            1.0000000\n",
  chars! "Hg    P\n",
  chars! "      0.150168091845475            1.0000000\n",
  chars! "Hg    D\n",
  chars! "   7016.36109438299          1.0000000\n",
  chars! "Hg    D\n",
  chars! "   3583.15866840945          1.0000000\n",
  chars! "Hg    D\n",
  chars! "   1829.86962476550          1.0000000\n",
  chars! "Hg    D\n",
  chars! "    934.489134729210         1.0000000\n",
  chars! "Hg    D\n",
  chars! "    477.230689612032         1.0000000\n",
  chars! "Hg    D\n",
  chars! "    243.715119463182         1.0000000\n",
  chars! "Hg    D\n",
  chars! "    124.461944187287         1.0000000\n",
  chars! "Hg    D\n",
  chars! "     63.5609952513411        1.0000000\n",
  chars! "Hg    D\n",
  chars! "     32.4597220758638        1.0000000\n",
  chars! "Hg    D\n",
  chars! "     16.5767315800501        1.0000000\n",
  chars! "Hg    D\n",
  chars! "      8.46550778330153       1.0000000\n",
  chars! "Hg    D\n",
  chars! "      4.32321786011102       1.0000000\n",
  chars! "Hg    D\n",
  chars! "      2.20780762884063       1.0000000\n",
  chars! "Hg    D\n",
  chars! "      1.12749685157938       1.0000000\n",
  chars! "Hg    D\n",
  chars! "      0.575797063890464            1.0000000\n",
  chars! "Hg    D\n",
  chars! "      0.294051604951678            1.0000000\n",
  chars! "Hg    D\n",
  chars! "      0.150168091845475            1.0000000\n",
  chars! "Hg    F\n",
  chars! "   1829.86962476550          1.0000000\n",
  chars! "Hg    F\n",
  chars! "    934.489134729210         1.0000000\n",
  chars! "Hg    F\n",
  chars! "    477.230689612032         1.0000000\n",
  chars! "Hg    F\n",
  chars! "    243.715119463182         1.0000000\n",
  chars! "Hg    F\n",
  chars! "    124.461944187287         1.0000000\n",
  chars! "Hg    F\n",
  chars! "     63.5609952513411        1.0000000\n",
  chars! "Hg    F\n",
  chars! "     32.4597220758638        1.0000000\n",
  chars! "Hg    F\n",
  chars! "     16.5767315800501        1.0000000\n",
  chars! "Hg    F\n",
  chars! "      8.46550778330153       1.0000000\n",
  chars! "Hg    F\n",
  chars! "      4.32321786011102       1.0000000\n",
  chars! "Hg    F\n",
  chars! "      2.20780762884063       1.0000000\n",
  chars! "Hg    F\n",
  chars! "      1.12749685157938       1.0000000\n",
  chars! "Hg    F\n",
  chars! "      0.575797063890464            1.0000000\n"]⟩

theorem ugbs_hg_ok : ugbs_hg.ok = true := by decide +kernel

/-- `Tl` in `data/ygbs`. -/
noncomputable def ugbs_tl : UBlock := ⟨81, chars! "Tl", [('S', 32, 32), ('P', 23, 23), ('D', 20, 18), ('F', 17, 13)], [
  chars! "#BASIS SET: (32s,23p,18d,13f)\n",
  chars! "Tl    S\n",
  chars! " 43662492.6604555            1.0000000\n",
  chars! "Tl    S\n",
  chars! " 22297831.7330222            1.0000000\n",
  chars! "Tl    S\n",
  chars! " 11387194.5850786            1.0000000\n",
  chars! "Tl    S\n",
  chars! " 5815282.94190191            1.0000000\n",
  chars! "Tl    S\n",
  chars! " 2969784.65079438            1.0000000\n",
  chars! "Tl    S\n",
  chars! " 1516627.98873367            1.0000000\n",
  chars! "Tl    S\n",
  chars! " 774520.959152738            1.0000000\n",
  chars! "Tl    S\n",
  chars! " 395537.152566831            1.0000000\n",
  chars! "Tl    S\n",
  chars! " 201995.358823884            1.0000000\n",
  chars! "Tl    S\n",
  chars! " 103156.238855453            1.0000000\n",
  chars! "Tl    S\n",
  chars! "  52680.4659115021           1.0000000\n",
  chars! "Tl    S\n",
  chars! "  26903.1860742976           1.0000000\n",
  chars! "Tl    S\n",
  chars! "  13739.0854166734           1.0000000\n",
  chars! "Tl    S\n",
  chars! "   7016.36109438299          1.0000000\n",
  chars! "Tl    S\n",
  chars! "   3583.15866840946          1.0000000\n",
  chars! "Tl    S\n",
  chars! "   1829.86962476550          1.0000000\n",
  chars! "Tl    S\n",
  chars! "    934.489134729210         1.0000000\n",
  chars! "Tl    S\n",
  chars! "    477.230689612032         1.0000000\n",
  chars! "Tl    S\n",
  chars! "    243.715119463182         1.0000000\n",
  chars! "Tl    S\n",
  chars! "    124.461944187287         1.0000000\n",
  chars! "Tl    S\n",
  chars! "     63.5609952513411        1.0000000\n",
  chars! "Tl    S\n",
  chars! "     32.4597220758638        1.0000000\n",
  chars! "Tl    S\n",
  chars! "     16.5767315800501        1.0000000\n",
  chars! "Tl    S\n",
  chars! "      8.46550778330153       1.0000000\n",
  chars! "Tl    S\n",
  chars! "      4.32321786011102       1.0000000\n",
  chars! "Tl    S\n",
  chars! "      2.20780762884063       1.0000000\n",
  chars! "Tl    S\n",
  chars! "      1.12749685157938       1.0000000\n",
  chars! "Tl    S\n",
  chars! "      0.575797063890464            1.0000000\n",
  chars! "Tl    S\n",
  chars! "      0.294051604951678            1.0000000\n",
  chars! "Tl    S\n",
  chars! "      0.150168091845475            1.0000000\n",
  chars! "Tl    S\n",
  chars! "      7.668876968794858E-002            1.0000000\n",
  chars! "Tl    S\n",
  chars! "      3.916389509898707E-002            1.0000000\n",
  chars! "Tl    P\n",
  chars! " 103156.238855453            1.0000000\n",
  chars! "Tl    P\n",
  chars! "  52680.4659115021           1.0000000\n",
  chars! "Tl    P\n",
  chars! "  26903.1860742976           1.0000000\n",
  chars! "Tl    P\n",
  chars! "  13739.0854166734           1.0000000\n",
  chars! "Tl    P\n",
  chars! "   7016.36109438299          1.0000000\n",
  chars! "Tl    P\n",
  chars! "   3583.15866840946          1.0000000\n",
  chars! "Tl    P\n",
  chars! "   1829.86962476550          1.0000000\n",
  chars! "Tl    P\n",
  chars! "    934.489134729210         1.0000000\n",
  chars! "Tl    P\n",
  chars! "    477.230689612032         1.0000000\n",
  chars! "Tl    P\n",
  chars! "    243.715119463182         1.0000000\n",
  chars! "Tl    P\n",
  chars! "    124.461944187287         1.0000000\n",
  chars! "Tl    P\n",
  chars! "     63.5609952513411        1.0000000\n",
  chars! "Tl    P\n",
  chars! "     32.4597220758638        1.0000000\n",
  chars! "Tl    P\n",
  chars! "     16.5767315800501        1.0000000\n",
  chars! "Tl    P\n",
  chars! "      8.46550778330153       1.0000000\n",
  chars! "Tl    P\n",
  chars! "      4.32321786011102       1.0000000\n",
  chars! "Tl    P\n",
  chars! "      2.20780762884063       1.0000000\n",
  chars! "Tl    P\n",
  chars! "      1.12749685157938       1.0000000\n",
  chars! "Tl    P\n",
  chars! "      0.575797063890464            1.0000000\n",
  chars! "Tl    P\n",
  chars! "      0.294051604951678            1.0000000\n",
  chars! "Tl    P\n",
  chars! "      0.150168091845475            1.0000000\n",
  chars! "Tl    P\n",
  chars! "      7.668876968794858E-002            1.0000000\n",
  chars! "Tl    P\n",
  chars! "      3.916389509898707E-002            1.0000000\n",
  chars! "Tl    D\n",
  chars! "  13739.0854166734           1.0000000\n",
  chars! "Tl    D\n",
  chars! "   7016.36109438299          1.0000000\n",
  chars! "Tl    D\n",
  chars! "   3583.15866840945          1.0000000\n",
  chars! "Tl    D\n",
  chars! "   1829.86962476550          1.0000000\n",
  chars! "Tl    D\n",
  chars! "    934.489134729210         1.0000000\n",
  chars! "Tl    D\n",
  chars! "    477.230689612032         1.0000000\n",
  chars! "Tl    D\n",
  chars! "    243.715119463182         1.0000000\n",
  chars! "Tl    D\n",
  chars! "    124.461944187287         1.0000000\n",
  chars! "Tl    D\n",
  chars! "     63.5609952513411        1.0000000\n",
  chars! "Tl    D\n",
  chars! "     32.4597220758638        1.0000000\n",
  chars! "Tl    D\n",
  chars! "     16.5767315800501        1.0000000\n",
  chars! "Tl    D\n",
  chars! "      8.46550778330153       1.0000000\n",
  chars! "Tl    D\n",
  chars! "      4.32321786011102       1.0000000\n",
  chars! "Tl    D\n",
  chars! "      2.20780762884063       1.0000000\n",
  chars! "Tl    D\n",
  chars! "      1.12749685157938       1.0000000\n",
  chars! "Tl    D\n",
  chars! "      0.575797063890464            1.0000000\n",
  chars! "Tl    D\n",
  chars! "      0.294051604951678            1.0000000\n",
  chars! "Tl    D\n",
  chars! "      0.150168091845475            1.0000000\n",
  chars! "Tl    F\n",
  chars! "   1829.86962476550          1.0000000\n",
  chars! "Tl    F\n",
  chars! "    934.489134729210         1.0000000\n",
  chars! "Tl    F\n",
  chars! "    477.230689612032         1.0000000\n",
  chars! "Tl    F\n",
  chars! "    243.715119463182         1.0000000\n",
  chars! "Tl    F\n",
  chars! "    124.461944187287         1.0000000\n",
  chars! "Tl    F\n",
  chars! "     63.5609952513411        1.0000000\n",
  chars! "Tl    F\n",
  chars! "     32.4597220758638        1.0000000\n",
  chars! "Tl    F\n",
  chars! "     16.5767315800501        1.0000000\n",
  chars! "Tl    F\n",
  chars! "      8.46550778330153       1.0000000\n",
  chars! "Tl    F\n",
  chars! "      4.32321786011102       1.0000000\n",
  chars! "Tl    F\n",
  chars! "      2.20780762884063       1.0000000\n",
  chars! "Tl    F\n",
  chars! "      1.12749685157938       1.0000000\n",
  chars! "Tl    F\n",
  chars! "      0.575797063890464            1.0000000\n"]⟩

theorem ugbs_tl_ok : ugbs_tl.ok = true := by decide +kernel

/-- `Pb` in `data/ygbs`. -/
noncomputable def ugbs_pb : UBlock := ⟨82, chars! "Pb", [('S', 32, 32), ('P', 23, 23), ('D', 19, 17), ('F', 17, 13)], [
  chars! "#BASIS SET: (32s,23p,17d,13f)\n",
  chars! "Pb    S\n",
  chars! " 43662492.6604555            1.0000000\n",
  chars! "Pb    S\n",
  chars! " 22297831.7330222            1.0000000\n",
  chars! "Pb    S\n",
  chars! " 11387194.5850786            1.0000000\n",
  chars! "Pb    S\n",
  chars! " 5815282.94190191            1.0000000\n",
  chars! "Pb    S\n",
  chars! " 2969784.65079438            1.0000000\n",
  chars! "Pb    S\n",
  chars! " 1516627.98873367            1.0000000\n",
  chars! "Pb    S\n",
  chars! " 774520.959152738            1.0000000\n",
  chars! "Pb    S\n",
  chars! " 395537.152566831            1.0000000\n",
  chars! "Pb    S\n",
  chars! " 201995.358823884            1.0000000\n",
  chars! "Pb    S\n",
  chars! " 103156.238855453            1.0000000\n",
  chars! "Pb    S\n",
  chars! "  52680.4659115021           1.0000000\n",
  chars! "Pb    S\n",
  chars! "  26903.1860742976           1.0000000\n",
  chars! "Pb    S\n",
  chars! "  13739.0854166734           1.0000000\n",
  chars! "Pb    S\n",
  chars! "   7016.36109438299          1.0000000\n",
  chars! "Pb    S\n",
  chars! "   3583.15866840946          1.0000000\n",
  chars! "Pb    S\n",
  chars! "   1829.86962476550          1.0000000\n",
  chars! "Pb    S\n",
  chars! "    934.489134729210         1.0000000\n",
  chars! "Pb    S\n",
  chars! "    477.230689612032         1.0000000\n",
  chars! "Pb    S\n",
  chars! "    243.715119463182         1.0000000\n",
  chars! "Pb    S\n",
  chars! "    124.461944187287         1.0000000\n",
  chars! "Pb    S\n",
  chars! "     63.5609952513411        1.0000000\n",
  chars! "Pb    S\n",
  chars! "     32.4597220758638        1.0000000\n",
  chars! "Pb    S\n",
  chars! "     16.5767315800501        1.0000000\n",
  chars! "Pb    S\n",
  chars! "      8.46550778330153       1.0000000\n",
  chars! "Pb    S\n",
  chars! "      4.32321786011102       1.0000000\n",
  chars! "Pb    S\n",
  chars! "      2.20780762884063       1.0000000\n",
  chars! "Pb    S\n",
  chars! "      1.12749685157938       1.0000000\n",
  chars! "Pb    S\n",
  chars! "      0.575797063890464            1.0000000\n",
  chars! "Pb    S\n",
  chars! "      0.294051604951678            1.0000000\n",
  chars! "Pb    S\n",
  chars! "      0.150168091845475            1.0000000\n",
  chars! "Pb    S\n",
  chars! "      7.668876968794858E-002            1.0000000\n",
  chars! "Pb    S\n",
  chars! "      3.916389509898707E-002            1.0000000\n",
  chars! "Pb    P\n",
  chars! " 103156.238855453            1.0000000\n",
  chars! "Pb    P\n",
  chars! "  52680.4659115021           1.0000000\n",
  chars! "Pb    P\n",
  chars! "  26903.1860742976           1.0000000\n",
  chars! "Pb    P\n",
  chars! "  13739.0854166734           1.0000000\n",
  chars! "Pb    P\n",
  chars! "   7016.36109438299          1.0000000\n",
  chars! "Pb    P\n",
  chars! "   3583.15866840946          1.0000000\n",
  chars! "Pb    P\n",
  chars! "   1829.86962476550          1.0000000\n",
  chars! "Pb    P\n",
  chars! "    934.489134729210         1.0000000\n",
  chars! "Pb    P\n",
  chars! "    477.230689612032         1.0000000\n",
  chars! "Pb    P\n",
  chars! "    243.715119463182         1.0000000\n",
  chars! "Pb    P\n",
  chars! "    124.461944187287         1.0000000\n",
  chars! "Pb    P\n",
  chars! "     63.5609952513411        1.0000000\n",
  chars! "Pb    P\n",
  chars! "     32.4597220758638        1.0000000\n",
  chars! "Pb    P\n",
  chars! "     16.5767315800501        1.0000000\n",
  chars! "Pb    P\n",
  chars! "      8.46550778330153       1.0000000\n",
  chars! "Pb    P\n",
  chars! "      4.32321786011102       1.0000000\n",
  chars! "Pb    P\n",
  chars! "      2.20780762884063       1.0000000\n",
  chars! "Pb    P\n",
  chars! "      1.12749685157938       1.0000000\n",
  chars! "Pb    P\n",
  chars! "      0.575797063890464            1.0000000\n",
  chars! "Pb    P\n",
  chars! "      0.294051604951678            1.0000000\n",
  chars! "Pb    P\n",
  chars! "      0.150168091845475            1.0000000\n",
  chars! "Pb    P\n",
  chars! "      7.668876968794858E-002            1.0000000\n",
  chars! "Pb    P\n",
  chars! "      3.916389509898707E-002            1.0000000\n",
  chars! "Pb    D\n",
  chars! "   7016.36109438299          1.0000000\n",
  chars! "Pb    D\n",
  chars! "   3583.15866840945          1.0000000\n",
  chars! "Pb    D\n",
  chars! "   1829.86962476550          1.0000000\n",
  chars! "Pb    D\n",
  chars! "    934.489134729210         1.0000000\n",
  chars! "Pb    D\n",
  chars! "    477.230689612032         1.0000000\n",
  chars! "Pb    D\n",
  chars! "    243.715119463182         1.0000000\n",
  chars! "Pb    D\n",
  chars! "    124.461944187287         1.0000000\n",
  chars! "Pb    D\n",
  chars! "     63.5609952513411        1.0000000\n",
  chars! "Pb    D\n",
  chars! "     32.4597220758638        1.0000000\n",
  chars! "Pb    D\n",
  chars! "     16.5767315800501        1.0000000\n",
  chars! "Pb    D\n",
  chars! "      8.46550778330153       1.0000000\n",
  chars! "Pb    D\n",
  chars! "      4.32321786011102       1.0000000\n",
  chars! "Pb    D\n",
  chars! "      2.20780762884063       1.0000000\n",
  chars! "Pb    D\n",
  chars! "      1.12749685157938       1.0000000\n",
  chars! "Pb    D\n",
  chars! "      0.575797063890464            1.0000000\n",
  chars! "Pb    D\n",
  chars! "      0.294051604951678            1.0000000\n",
  chars! "Pb    D\n",
  chars! "      0.150168091845475            1.0000000\n",
  chars! "Pb    F\n",
  chars! "   1829.86962476550          1.0000000\n",
  chars! "Pb    F\n",
  chars! "    934.489134729210         1.0000000\n",
  chars! "Pb    F\n",
  chars! "    477.230689612032         1.0000000\n",
  chars! "Pb    F\n",
  chars! "    243.715119463182         1.0000000\n",
  chars! "Pb    F\n",
  chars! "    124.461944187287         1.0000000\n",
  chars! "Pb    F\n",
  chars! "     63.5609952513411        1.0000000\n",
  chars! "Pb    F\n",
  chars! "     32.4597220758638        1.0000000\n",
  chars! "Pb    F\n",
  chars! "     16.5767315800501        1.0000000\n",
  chars! "Pb    F\n",
  chars! "      8.46550778330153       1.0000000\n",
  chars! "Pb    F\n",
  chars! "      4.32321786011102       1.0000000\n",
  chars! "Pb    F\n",
  chars! "      2.20780762884063       1.0000000\n",
  chars! "Pb    F\n",
  chars! "      1.12749685157938       1.0000000\n",
  chars! "Pb    F\n",
  chars! "      0.575797063890464            1.0000000\n"]⟩

theorem ugbs_pb_ok : ugbs_pb.ok = true := by decide +kernel

/-- `Bi` in `data/ygbs`. -/
noncomputable def ugbs_bi : UBlock := ⟨83, chars! "Bi", [('S', 32, 32), ('P', 25, 25), ('D', 19, 17), ('F', 17, 12)], [
  chars! "#BASIS SET: (32s,25p,17d,12f)\n",
  chars! "Bi    S\n",
  chars! " 43662492.6604555            1.0000000\n",
  chars! "Bi    S\n",
  chars! " 22297831.7330222            1.0000000\n",
  chars! "Bi    S\n",
  chars! " 11387194.5850786            1.0000000\n",
  chars! "Bi    S\n",
  chars! " 5815282.94190191            1.0000000\n",
  chars! "Bi    S\n",
  chars! " 2969784.65079438            1.0000000\n",
  chars! "Bi    S\n",
  chars! " 1516627.98873367            1.0000000\n",
  chars! "Bi    S\n",
  chars! " 774520.959152738            1.0000000\n",
  chars! "Bi    S\n",
  chars! " 395537.152566831            1.0000000\n",
  chars! "Bi    S\n",
  chars! " 201995.358823884            1.0000000\n",
  chars! "Bi    S\n",
  chars! " 103156.238855453            1.0000000\n",
  chars! "Bi    S\n",
  chars! "  52680.4659115021           1.0000000\n",
  chars! "Bi    S\n",
  chars! "  26903.1860742976           1.0000000\n",
  chars! "Bi    S\n",
  chars! "  13739.0854166734           1.0000000\n",
  chars! "Bi    S\n",
  chars! "   7016.36109438299          1.0000000\n",
  chars! "Bi    S\n",
  chars! "   3583.15866840946          1.0000000\n",
  chars! "Bi    S\n",
  chars! "   1829.86962476550          1.0000000\n",
  chars! "Bi    S\n",
  chars! "    934.489134729210         1.0000000\n",
  chars! "Bi    S\n",
  chars! "    477.230689612032         1.0000000\n",
  chars! "Bi    S\n",
  chars! "    243.715119463182         1.0000000\n",
  chars! "Bi    S\n",
  chars! "    124.461944187287         1.0000000\n",
  chars! "Bi    S\n",
  chars! "     63.5609952513411        1.0000000\n",
  chars! "Bi    S\n",
  chars! "     32.4597220758638        1.0000000\n",
  chars! "Bi    S\n",
  chars! "     16.5767315800501        1.0000000\n",
  chars! "Bi    S\n",
  chars! "      8.46550778330153       1.0000000\n",
  chars! "Bi    S\n",
  chars! "      4.32321786011102       1.0000000\n",
  chars! "Bi    S\n",
  chars! "      2.20780762884063       1.0000000\n",
  chars! "Bi    S\n",
  chars! "      1.12749685157938       1.0000000\n",
  chars! "Bi    S\n",
  chars! "      0.575797063890464            1.0000000\n",
  chars! "Bi    S\n",
  chars! "      0.294051604951678            1.0000000\n",
  chars! "Bi    S\n",
  chars! "      0.150168091845475            1.0000000\n",
  chars! "Bi    S\n",
  chars! "      7.668876968794858E-002            1.0000000\n",
  chars! "Bi    S\n",
  chars! "      3.916389509898707E-002            1.0000000\n",
  chars! "Bi    P\n",
  chars! " 395537.152566831            1.0000000\n",
  chars! "Bi    P\n",
  chars! " 201995.358823884            1.0000000\n",
  chars! "Bi    P\n",
  chars! " 103156.238855453            1.0000000\n",
  chars! "Bi    P\n",
  chars! "  52680.4659115021           1.0000000\n",
  chars! "Bi    P\n",
  chars! "  26903.1860742976           1.0000000\n",
  chars! "Bi    P\n",
  chars! "  13739.0854166734           1.0000000\n",
  chars! "Bi    P\n",
  chars! "   7016.36109438299          1.0000000\n",
  chars! "Bi    P\n",
  chars! "   3583.15866840946          1.0000000\n",
  chars! "Bi    P\n",
  chars! "   1829.86962476550          1.0000000\n",
  chars! "Bi    P\n",
  chars! "    934.489134729210         1.0000000\n",
  chars! "Bi    P\n",
  chars! "    477.230689612032         1.0000000\n",
  chars! "Bi    P\n",
  chars! "    243.715119463182         1.0000000\n",
  chars! "Bi    P\n",
  chars! "    124.461944187287         1.0000000\n",
  chars! "Bi    P\n",
  chars! "     63.5609952513411        1.0000000\n",
  chars! "Bi    P\n",
  chars! "     32.4597220758638        1.0000000\n",
  chars! "Bi    P\n",
  chars! "     16.5767315800501        1.0000000\n",
  chars! "Bi    P\n",
  chars! "      8.46550778330153       1.0000000\n",
  chars! "Bi    P\n",
  chars! "      4.32321786011102       1.0000000\n",
  chars! "Bi    P\n",
  chars! "      2.20780762884063       1.0000000\n",
  chars! "Bi    P\n",
  chars! "      1.12749685157938       1.0000000\n",
  chars! "Bi    P\n",
  chars! "      0.575797063890464            1.0000000\n",
  chars! "Bi    P\n",
  chars! "      0.294051604951678            1.0000000\n",
  chars! "Bi    P\n",
  chars! "      0.150168091845475            1.0000000\n",
  chars! "Bi    P\n",
  chars! "      7.668876968794858E-002            1.0000000\n",
  chars! "Bi    P\n",
  chars! "      3.916389509898707E-002            1.0000000\n",
  chars! "Bi    D\n",
  chars! "   7016.36109438299          1.0000000\n",
  chars! "Bi    D\n",
  chars! "   3583.15866840945          1.0000000\n",
  chars! "Bi    D\n",
  chars! "   1829.86962476550          1.0000000\n",
  chars! "Bi    D\n",
  chars! "    934.489134729210         1.0000000\n",
  chars! "Bi    D\n",
  chars! "    477.230689612032         1.0000000\n",
  chars! "Bi    D\n",
  chars! "    243.715119463182         1.0000000\n",
  chars! "Bi    D\n",
  chars! "    124.461944187287         1.0000000\n",
  chars! "Bi    D\n",
  chars! "     63.5609952513411        1.0000000\n",
  chars! "Bi    D\n",
  chars! "     32.4597220758638        1.0000000\n",
  chars! "Bi    D\n",
  chars! "     16.5767315800501        1.0000000\n",
  chars! "Bi    D\n",
  chars! "      8.46550778330153       1.0000000\n",
  chars! "Bi    D\n",
  chars! "      4.32321786011102       1.0000000\n",
  chars! "Bi    D\n",
  chars! "      2.20780762884063       1.0000000\n",
  chars! "Bi    D\n",
  chars! "      1.12749685157938       1.0000000\n",
  chars! "Bi    D\n",
  chars! "      0.575797063890464            1.0000000\n",
  chars! "Bi    D\n",
  chars! "      0.294051604951678            1.0000000\n",
  chars! "Bi    D\n",
  chars! "      0.150168091845475            1.0000000\n",
  chars! "Bi    F\n",
  chars! "   1829.86962476550          1.0000000\n",
  chars! "Bi    F\n",
  chars! "    934.489134729211         1.0000000\n",
  chars! "Bi    F\n",
  chars! "    477.230689612032         1.0000000\n",
  chars! "Bi    F\n",
  chars! "    243.715119463182         1.0000000\n",
  chars! "Bi    F\n",
  chars! "    124.461944187287         1.0000000\n",
  chars! "Bi    F\n",
  chars! "     63.5609952513411        1.0000000\n",
  chars! "Bi    F\n",
  chars! "     32.4597220758638        1.0000000\n",
  chars! "Bi    F\n",
  chars! "     16.5767315800501        1.0000000\n",
  chars! "Bi    F\n",
  chars! "      8.46550778330153       1.0000000\n",
  chars! "Bi    F\n",
  chars! "      4.32321786011102       1.0000000\n",
  chars! "Bi    F\n",
  chars! "      2.20780762884063       1.0000000\n",
  chars! "Bi    F\n",
  chars! "      1.12749685157938       1.0000000\n"]⟩

theorem ugbs_bi_ok : ugbs_bi.ok = true := by decide +kernel

/-- `Po` in `data/ygbs`. -/
noncomputable def ugbs_po : UBlock := ⟨84, chars! "Po", [('S', 32, 32), ('P', 24, 23), ('D', 20, 18), ('F', 17, 13)], [
  chars! "#BASIS SET: (32s,23p,18d,13f)\n",
  chars! "Po    S\n",
  chars! " 43662492.6604555            1.0000000\n",
  chars! "Po    S\n",
  chars! " 22297831.7330222            1.0000000\n",
  chars! "Po    S\n",
  chars! " 11387194.5850786            1.0000000\n",
  chars! "Po    S\n",
  chars! " 5815282.94190191            1.0000000\n",
  chars! "Po    S\n",
  chars! " 2969784.65079438            1.0000000\n",
  chars! "Po    S\n",
  chars! " 1516627.98873367            1.0000000\n",
  chars! "Po    S\n",
  chars! " 774520.959152738            1.0000000\n",
  chars! "Po    S\n",
  chars! " 395537.152566831            1.0000000\n",
  chars! "Po    S\n",
  chars! " 201995.358823884            1.0000000\n",
  chars! "Po    S\n",
  chars! " 103156.238855453            1.0000000\n",
  chars! "Po    S\n",
  chars! "  52680.4659115021           1.0000000\n",
  chars! "Po    S\n",
  chars! "  26903.1860742976           1.0000000\n",
  chars! "Po    S\n",
  chars! "  13739.0854166734           1.0000000\n",
  chars! "Po    S\n",
  chars! "   7016.36109438299          1.0000000\n",
  chars! "Po    S\n",
  chars! "   3583.15866840946          1.0000000\n",
  chars! "Po    S\n",
  chars! "   1829.86962476550          1.0000000\n",
  chars! "Po    S\n",
  chars! "    934.489134729210         1.0000000\n",
  chars! "Po    S\n",
  chars! "    477.230689612032         1.0000000\n",
  chars! "Po    S\n",
  chars! "    243.715119463182         1.0000000\n",
  chars! "Po    S\n",
  chars! "    124.461944187287         1.0000000\n",
  chars! "Po    S\n",
  chars! "     63.5609952513411        1.0000000\n",
  chars! "Po    S\n",
  chars! "     32.4597220758638        1.0000000\n",
  chars! "Po    S\n",
  chars! "     16.5767315800501        1.0000000\n",
  chars! "Po    S\n",
  chars! "      8.46550778330153       1.0000000\n",
  chars! "Po    S\n",
  chars! "      4.32321786011102       1.0000000\n",
  chars! "Po    S\n",
  chars! "      2.20780762884063       1.0000000\n",
  chars! "Po    S\n",
  chars! "      1.12749685157938       1.0000000\n",
  chars! "Po    S\n",
  chars! "      0.575797063890464            1.0000000\n",
  chars! "Po    S\n",
  chars! "      0.294051604951678            1.0000000\n",
  chars! "Po    S\n",
  chars! "      0.150168091845475            1.0000000\n",
  chars! "Po    S\n",
  chars! "      7.668876968794858E-002            1.0000000\n",
  chars! "Po    S\n",
  chars! "      3.916389509898707E-002            1.0000000\n",
  chars! "Po    P\n",
  chars! " 201995.358823884            1.0000000\n",
  chars! "Po    P\n",
  chars! " 103156.238855453            1.0000000\n",
  chars! "Po    P\n",
  chars! "  52680.4659115022           1.0000000\n",
  chars! "Po    P\n",
  chars! "  26903.1860742976           1.0000000\n",
  chars! "Po    P\n",
  chars! "  13739.0854166734           1.0000000\n",
  chars! "Po    P\n",
  chars! "   7016.36109438300          1.0000000\n",
  chars! "Po    P\n",
  chars! "   3583.15866840946          1.0000000\n",
  chars! "Po    P\n",
  chars! "   1829.86962476550          1.0000000\n",
  chars! "Po    P\n",
  chars! "    934.489134729211         1.0000000\n",
  chars! "Po    P\n",
  chars! "    477.230689612032         1.0000000\n",
  chars! "Po    P\n",
  chars! "    243.715119463182         1.0000000\n",
  chars! "Po    P\n",
  chars! "    124.461944187287         1.0000000\n",
  chars! "Po    P\n",
  chars! "     63.5609952513412        1.0000000\n",
  chars! "Po    P\n",
  chars! "     32.4597220758638        1.0000000\n",
  chars! "Po    P\n",
  chars! "     16.5767315800501        1.0000000\n",
  chars! "Po    P\n",
  chars! "      8.46550778330153       1.0000000\n",
  chars! "Po    P\n",
  chars! "      4.32321786011102       1.0000000\n",
  chars! "Po    P\n",
  chars! "      2.20780762884063       1.0000000\n",
  chars! "Po    P\n",
  chars! "      1.12749685157938       1.0000000\n",
  chars! "Po    P\n",
  chars! "      0.575797063890465            1.0000000\n",
  chars! "Po    P\n",
  chars! "      0.294051604951678            1.0000000\n",
  chars! "Po    P\n",
  chars! "      0.150168091845475            1.0000000\n",
  chars! "Po    P\n",
  chars! "      7.668876968794860E-002            1.0000000\n",
  chars! "Po    D\n",
  chars! "  13739.0854166734           1.0000000\n",
  chars! "Po    D\n",
  chars! "   7016.36109438299          1.0000000\n",
  chars! "Po    D\n",
  chars! "   3583.15866840945          1.0000000\n",
  chars! "Po    D\n",
  chars! "   1829.86962476550          1.0000000\n",
  chars! "Po    D\n",
  chars! "    934.489134729210         1.0000000\n",
  chars! "Po    D\n",
  chars! "    477.230689612032         1.0000000\n",
  chars! "Po    D\n",
  chars! "    243.715119463182         1.0000000\n",
  chars! "Po    D\n",
  chars! "    124.461944187287         1.0000000\n",
  chars! "Po    D\n",
  chars! "     63.5609952513411        1.0000000\n",
  chars! "Po    D\n",
  chars! "     32.4597220758638        1.0000000\n",
  chars! "Po    D\n",
  chars! "     16.5767315800501        1.0000000\n",
  chars! "Po    D\n",
  chars! "      8.46550778330153       1.0000000\n",
  chars! "Po    D\n",
  chars! "      4.32321786011102       1.0000000\n",
  chars! "Po    D\n",
  chars! "      2.20780762884063       1.0000000\n",
  chars! "Po    D\n",
  chars! "      1.12749685157938       1.0000000\n",
  chars! "Po    D\n",
  chars! "      0.575797063890464            1.0000000\n",
  chars! "Po    D\n",
  chars! "      0.294051604951678            1.0000000\n",
  chars! "Po    D\n",
  chars! "      0.150168091845475            1.0000000\n",
  chars! "Po    F\n",
  chars! "   1829.86962476550          1.0000000\n",
  chars! "Po    F\n",
  chars! "    934.489134729210         1.0000000\n",
  chars! "Po    F\n",
  chars! "    477.230689612032         1.0000000\n",
  chars! "Po    F\n",
  chars! "    243.715119463182         1.0000000\n",
  chars! "Po    F\n",
  chars! "    124.461944187287         1.0000000\n",
  chars! "Po    F\n",
  chars! "     63.5609952513411        1.0000000\n",
  chars! "Po    F\n",
  chars! "     32.4597220758638        1.0000000\n",
  chars! "Po    F\n",
  chars! "     16.5767315800501        1.0000000\n",
  chars! "Po    F\n",
  chars! "      8.46550778330153       1.0000000\n",
  chars! "Po    F\n",
  chars! "      4.32321786011102       1.0000000\n",
  chars! "Po    F\n",
  chars! "      2.20780762884063       1.0000000\n",
  chars! "Po    F\n",
  chars! "      1.12749685157938       1.0000000\n",
  chars! "Po    F\n",
  chars! "      0.575797063890464            1.0000000\n"]⟩

theorem ugbs_po_ok : ugbs_po.ok = true := by decide +kernel

/-- `At` in `data/ygbs`. -/
noncomputable def ugbs_at : UBlock := ⟨85, chars! "At", [('S', 33, 32), ('P', 25, 24), ('D', 20, 18), ('F', 17, 13)], [
  chars! "#BASIS SET: (32s,24p,18d,13f)\n",
  chars! "At    S\n",
  chars! " 85497697.1819645            1.0000000\n",
  chars! "At    S\n",
  chars! " 43662492.6604555            1.0000000\n",
  chars! "At    S\n",
  chars! " 22297831.7330223            1.0000000\n",
  chars! "At    S\n",
  chars! " 11387194.5850786            1.0000000\n",
  chars! "At    S\n",
  chars! " 5815282.94190191            1.0000000\n",
  chars! "At    S\n",
  chars! " 2969784.65079438            1.0000000\n",
  chars! "At    S\n",
  chars! " 1516627.98873367            1.0000000\n",
  chars! "At    S\n",
  chars! " 774520.959152738            1.0000000\n",
  chars! "At    S\n",
  chars! " 395537.152566831            1.0000000\n",
  chars! "At    S\n",
  chars! " 201995.358823884            1.0000000\n",
  chars! "At    S\n",
  chars! " 103156.238855453            1.0000000\n",
  chars! "At    S\n",
  chars! "  52680.4659115022           1.0000000\n",
  chars! "At    S\n",
  chars! "  26903.1860742976           1.0000000\n",
  chars! "At    S\n",
  chars! "  13739.0854166734           1.0000000\n",
  chars! "At    S\n",
  chars! "   7016.36109438300          1.0000000\n",
  chars! "At    S\n",
  chars! "   3583.15866840946          1.0000000\n",
  chars! "At    S\n",
  chars! "   1829.86962476550          1.0000000\n",
  chars! "At    S\n",
  chars! "    934.489134729211         1.0000000\n",
  chars! "At    S\n",
  chars! "    477.230689612032         1.0000000\n",
  chars! "At    S\n",
  chars! "    243.715119463182         1.0000000\n",
  chars! "At    S\n",
  chars! "    124.461944187287         1.0000000\n",
  chars! "At    S\n",
  chars! "     63.5609952513412        1.0000000\n",
  chars! "At    S\n",
  chars! "     32.4597220758638        1.0000000\n",
  chars! "At    S\n",
  chars! "     16.5767315800501        1.0000000\n",
  chars! "At    S\n",
  chars! "      8.46550778330153       1.0000000\n",
  chars! "At    S\n",
  chars! "      4.32321786011102       1.0000000\n",
  chars! "At    S\n",
  chars! "      2.20780762884063       1.0000000\n",
  chars! "At    S\n",
  chars! "      1.12749685157938       1.0000000\n",
  chars! "At    S\n",
  chars! "      0.575797063890465            1.0000000\n",
  chars! "At    S\n",
  chars! "      0.294051604951678            1.0000000\n",
  chars! "At    S\n",
  chars! "      0.150168091845475            1.0000000\n",
  chars! "At    S\n",
  chars! "      7.668876968794860E-002            1.0000000\n",
  chars! "At    P\n",
  chars! " 395537.152566831            1.0000000\n",
  chars! "At    P\n",
  chars! " 201995.358823884            1.0000000\n",
  chars! "At    P\n",
  chars! " 103156.238855453            1.0000000\n",
  chars! "At    P\n",
  chars! "  52680.4659115022           1.0000000\n",
  chars! "At    P\n",
  chars! "  26903.1860742976           1.0000000\n",
  chars! "At    P\n",
  chars! "  13739.0854166734           1.0000000\n",
  chars! "At    P\n",
  chars! "   7016.36109438300          1.0000000\n",
  chars! "At    P\n",
  chars! "   3583.15866840946          1.0000000\n",
  chars! "At    P\n",
  chars! "   1829.86962476550          1.0000000\n",
  chars! "At    P\n",
  chars! "    934.489134729211         1.0000000\n",
  chars! "At    P\n",
  chars! "    477.230689612032         1.0000000\n",
  chars! "At    P\n",
  chars! "    243.715119463182         1.0000000\n",
  chars! "At    P\n",
  chars! "    124.461944187287         1.0000000\n",
  chars! "At    P\n",
  chars! "     63.5609952513412        1.0000000\n",
  chars! "At    P\n",
  chars! "     32.4597220758638        1.0000000\n",
  chars! "At    P\n",
  chars! "     16.5767315800501        1.0000000\n",
  chars! "At    P\n",
  chars! "      8.46550778330153       1.0000000\n",
  chars! "At    P\n",
  chars! "      4.32321786011102       1.0000000\n",
  chars! "At    P\n",
  chars! "      2.20780762884063       1.0000000\n",
  chars! "At    P\n",
  chars! "      1.12749685157938       1.0000000\n",
  chars! "At    P\n",
  chars! "      0.575797063890465            1.0000000\n",
  chars! "At    P\n",
  chars! "      0.294051604951678            1.0000000\n",
  chars! "At    P\n",
  chars! "      0.150168091845475            1.0000000\n",
  chars! "At    P\n",
  chars! "      7.668876968794860E-002            1.0000000\n",
  chars! "At    D\n",
  chars! "  13739.0854166734           1.0000000\n",
  chars! "At    D\n",
  chars! "   7016.36109438299          1.0000000\n",
  chars! "At    D\n",
  chars! "   3583.15866840945          1.0000000\n",
  chars! "At    D\n",
  chars! "   1829.86962476550          1.0000000\n",
  chars! "At    D\n",
  chars! "    934.489134729210         1.0000000\n",
  chars! "At    D\n",
  chars! "    477.230689612032         1.0000000\n",
  chars! "At    D\n",
  chars! "    243.715119463182         1.0000000\n",
  chars! "At    D\n",
  chars! "    124.461944187287         1.0000000\n",
  chars! "At    D\n",
  chars! "     63.5609952513411        1.0000000\n",
  chars! "At    D\n",
  chars! "     32.4597220758638        1.0000000\n",
  chars! "At    D\n",
  chars! "     16.5767315800501        1.0000000\n",
  chars! "At    D\n",
  chars! "      8.46550778330153       1.0000000\n",
  chars! "At    D\n",
  chars! "      4.32321786011102       1.0000000\n",
  chars! "At    D\n",
  chars! "      2.20780762884063       1.0000000\n",
  chars! "At    D\n",
  chars! "      1.12749685157938       1.0000000\n",
  chars! "At    D\n",
  chars! "      0.575797063890464            1.0000000\n",
  chars! "At    D\n",
  chars! "      0.294051604951678            1.0000000\n",
  chars! "At    D\n",
  chars! "      0.150168091845475            1.0000000\n",
  chars! "At    F\n",
  chars! "   1829.86962476550          1.0000000\n",
  chars! "At    F\n",
  chars! "    934.489134729210         1.0000000\n",
  chars! "At    F\n",
  chars! "    477.230689612032         1.0000000\n",
  chars! "At    F\n",
  chars! "    243.715119463182         1.0000000\n",
  chars! "At    F\n",
  chars! "    124.461944187287         1.0000000\n",
  chars! "At    F\n",
  chars! "     63.5609952513411        1.0000000\n",
  chars! "At    F\n",
  chars! "     32.4597220758638        1.0000000\n",
  chars! "At    F\n",
  chars! "     16.5767315800501        1.0000000\n",
  chars! "At    F\n",
  chars! "      8.46550778330153       1.0000000\n",
  chars! "At    F\n",
  chars! "      4.32321786011102       1.0000000\n",
  chars! "At    F\n",
  chars! "      2.20780762884063       1.0000000\n",
  chars! "At    F\n",
  chars! "      1.12749685157938       1.0000000\n",
  chars! "At    F\n",
  chars! "      0.575797063890464            1.0000000\n"]⟩

theorem ugbs_at_ok : ugbs_at.ok = true := by decide +kernel

/-- `Rn` in `data/ygbs`. -/
noncomputable def ugbs_rn : UBlock := ⟨86, chars! "Rn", [('S', 32, 32), ('P', 25, 25), ('D', 20, 17), ('F', 18, 13)], [
  chars! "#BASIS SET: (32s,25p,17d,13f)\n",
  chars! "Rn    S\n",
  chars! " 43662492.6604555            1.0000000\n",
  chars! "Rn    S\n",
  chars! " 22297831.7330222            1.0000000\n",
  chars! "Rn    S\n",
  chars! " 11387194.5850786            1.0000000\n",
  chars! "Rn    S\n",
  chars! " 5815282.94190191            1.0000000\n",
  chars! "Rn    S\n",
  chars! " 2969784.65079438            1.0000000\n",
  chars! "Rn    S\n",
  chars! " 1516627.98873367            1.0000000\n",
  chars! "Rn    S\n",
  chars! " 774520.959152738            1.0000000\n",
  chars! "Rn    S\n",
  chars! " 395537.152566831            1.0000000\n",
  chars! "Rn    S\n",
  chars! " 201995.358823884            1.0000000\n",
  chars! "Rn    S\n",
  chars! " 103156.238855453            1.0000000\n",
  chars! "Rn    S\n",
  chars! "  52680.4659115021           1.0000000\n",
  chars! "Rn    S\n",
  chars! "  26903.1860742976           1.0000000\n",
  chars! "Rn    S\n",
  chars! "  13739.0854166734           1.0000000\n",
  chars! "Rn    S\n",
  chars! "   7016.36109438299          1.0000000\n",
  chars! "Rn    S\n",
  chars! "   3583.15866840946          1.0000000\n",
  chars! "Rn    S\n",
  chars! "   1829.86962476550          1.0000000\n",
  chars! "Rn    S\n",
  chars! "    934.489134729210         1.0000000\n",
  chars! "Rn    S\n",
  chars! "    477.230689612032         1.0000000\n",
  chars! "Rn    S\n",
  chars! "    243.715119463182         1.0000000\n",
  chars! "Rn    S\n",
  chars! "    124.461944187287         1.0000000\n",
  chars! "Rn    S\n",
  chars! "     63.5609952513411        1.0000000\n",
  chars! "Rn    S\n",
  chars! "     32.4597220758638        1.0000000\n",
  chars! "Rn    S\n",
  chars! "     16.5767315800501        1.0000000\n",
  chars! "Rn    S\n",
  chars! "      8.46550778330153       1.0000000\n",
  chars! "Rn    S\n",
  chars! "      4.32321786011102       1.0000000\n",
  chars! "Rn    S\n",
  chars! "      2.20780762884063       1.0000000\n",
  chars! "Rn    S\n",
  chars! "      1.12749685157938       1.0000000\n",
  chars! "Rn    S\n",
  chars! "      0.575797063890464            1.0000000\n",
  chars! "Rn    S\n",
  chars! "      0.294051604951678            1.0000000\n",
  chars! "Rn    S\n",
  chars! "      0.150168091845475            1.0000000\n",
  chars! "Rn    S\n",
  chars! "      7.668876968794858E-002            1.0000000\n",
  chars! "Rn    S\n",
  chars! "      3.916389509898707E-002            1.0000000\n",
  chars! "Rn    P\n",
  chars! " 395537.152566831            1.0000000\n",
  chars! "Rn    P\n",
  chars! " 201995.358823884            1.0000000\n",
  chars! "Rn    P\n",
  chars! " 103156.238855453            1.0000000\n",
  chars! "Rn    P\n",
  chars! "  52680.4659115021           1.0000000\n",
  chars! "Rn    P\n",
  chars! "  26903.1860742976           1.0000000\n",
  chars! "Rn    P\n",
  chars! "  13739.0854166734           1.0000000\n",
  chars! "Rn    P\n",
  chars! "   7016.36109438299          1.0000000\n",
  chars! "Rn    P\n",
  chars! "   3583.15866840946          1.0000000\n",
  chars! "Rn    P\n",
  chars! "   1829.86962476550          1.0000000\n",
  chars! "Rn    P\n",
  chars! "    934.489134729210         1.0000000\n",
  chars! "Rn    P\n",
  chars! "    477.230689612032         1.0000000\n",
  chars! "Rn    P\n",
  chars! "    243.715119463182         1.0000000\n",
  chars! "Rn    P\n",
  chars! "    124.461944187287         1.0000000\n",
  chars! "Rn    P\n",
  chars! "     63.5609952513411        1.0000000\n",
  chars! "Rn    P\n",
  chars! "     32.4597220758638        1.0000000\n",
  chars! "Rn    P\n",
  chars! "     16.5767315800501        1.0000000\n",
  chars! "Rn    P\n",
  chars! "      8.46550778330153       1.0000000\n",
  chars! "Rn    P\n",
  chars! "      4.32321786011102       1.0000000\n",
  chars! "Rn    P\n",
  chars! "      2.20780762884063       1.0000000\n",
  chars! "Rn    P\n",
  chars! "      1.12749685157938       1.0000000\n",
  chars! "Rn    P\n",
  chars! "      0.575797063890464            1.0000000\n",
  chars! "Rn    P\n",
  chars! "      0.294051604951678            1.0000000\n",
  chars! "Rn    P\n",
  chars! "      0.150168091845475            1.0000000\n",
  chars! "Rn    P\n",
  chars! "      7.668876968794858E-002            1.0000000\n",
  chars! "Rn    P\n",
  chars! "      3.916389509898707E-002            1.0000000\n",
  chars! "Rn    D\n",
  chars! "  13739.0854166734           1.0000000\n",
  chars! "Rn    D\n",
  chars! "   7016.36109438299          1.0000000\n",
  chars! "Rn    D\n",
  chars! "   3583.15866840946          1.0000000\n",
  chars! "Rn    D\n",
  chars! "   1829.86962476550          1.0000000\n",
  chars! "Rn    D\n",
  chars! "    934.489134729211         1.0000000\n",
  chars! "Rn    D\n",
  chars! "    477.230689612032         1.0000000\n",
  chars! "Rn    D\n",
  chars! "    243.715119463182         1.0000000\n",
  chars! "Rn    D\n",
  chars! "    124.461944187287         1.0000000\n",
  chars! "Rn    D\n",
  chars! "     63.5609952513411        1.0000000\n",
  chars! "Rn    D\n",
  chars! "     32.4597220758638        1.0000000\n",
  chars! "Rn    D\n",
  chars! "     16.5767315800501        1.0000000\n",
  chars! "Rn    D\n",
  chars! "      8.46550778330153       1.0000000\n",
  chars! "Rn    D\n",
  chars! "      4.32321786011102       1.0000000\n",
  chars! "Rn    D\n",
  chars! "      2.20780762884063       1.0000000\n",
  chars! "Rn    D\n",
  chars! "      1.12749685157938       1.0000000\n",
  chars! "Rn    D\n",
  chars! "      0.575797063890465            1.0000000\n",
  chars! "Rn    D\n",
  chars! "      0.294051604951678            1.0000000\n",
  chars! "Rn    F\n",
  chars! "   3583.15866840946          1.0000000\n",
  chars! "Rn    F\n",
  chars! "   1829.86962476550          1.0000000\n",
  chars! "Rn    F\n",
  chars! "    934.489134729211         1.0000000\n",
  chars! "Rn    F\n",
  chars! "    477.230689612032         1.0000000\n",
  chars! "Rn    F\n",
  chars! "    243.715119463182         1.0000000\n",
  chars! "Rn    F\n",
  chars! "    124.461944187287         1.0000000\n",
  chars! "Rn    F\n",
  chars! "     63.5609952513411        1.0000000\n",
  chars! "Rn    F\n",
  chars! "     32.4597220758638        1.0000000\n",
  chars! "Rn    F\n",
  chars! "     16.5767315800501        1.0000000\n",
  chars! "Rn    F\n",
  chars! "      8.46550778330153       1.0000000\n",
  chars! "Rn    F\n",
  chars! "      4.32321786011102       1.0000000\n",
  chars! "Rn    F\n",
  chars! "      2.20780762884063       1.0000000\n",
  chars! "Rn    F\n",
  chars! "      1.12749685157938       1.0000000\n"]⟩

theorem ugbs_rn_ok : ugbs_rn.ok = true := by decide +kernel

/-- Part 5 of the UGBS file. -/
noncomputable def ugbs5 : List UBlock := [
  ugbs_au, ugbs_hg, ugbs_tl, ugbs_pb, ugbs_bi, ugbs_po, ugbs_at, ugbs_rn]

theorem ugbs5_ok : ∀ b ∈ ugbs5, b.ok = true := by
  intro b hb
  unfold ugbs5 at hb
  simp only [List.mem_cons, List.not_mem_nil, or_false] at hb
  rcases hb with rfl | rfl | rfl | rfl | rfl | rfl | rfl | rfl
  · exact ugbs_au_ok
  · exact ugbs_hg_ok
  · exact ugbs_tl_ok
  · exact ugbs_pb_ok
  · exact ugbs_bi_ok
  · exact ugbs_po_ok
  · exact ugbs_at_ok
  · exact ugbs_rn_ok

end BFit.Data

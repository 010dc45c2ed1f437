import Verif.Lemmas.UgbsScan

/-! Copy of /repo/bfit/data/ygbs, generated by tools/gendata.py. -/

namespace BFit.Data

/-- `Y` in `data/ygbs`. -/
noncomputable def ugbs_y : UBlock := ⟨39, chars! "Y", [('S', 29, 30), ('P', 23, 22), ('D', 18, 18)], [
  chars! "#BASIS SET: (30s,22p,18d)\n",
  chars! "Y    S\n",
  chars! " 5815282.94190191            1.0000000\n",
  chars! "Y    S\n",
  chars! " 2969784.65079438            1.0000000\n",
  chars! "Y    S\n",
  chars! " 1516627.98873367            1.0000000\n",
  chars! "Y    S\n",
  chars! " 774520.959152735            1.0000000\n",
  chars! "Y    S\n",
  chars! " 395537.152566831            1.0000000\n",
  chars! "Y    S\n",
  chars! " 201995.358823884            1.0000000\n",
  chars! "Y    S\n",
  chars! " 103156.238855453            1.0000000\n",
  chars! "Y    S\n",
  chars! "  52680.4659115021           1.0000000\n",
  chars! "Y    S\n",
  chars! "  26903.1860742975           1.0000000\n",
  chars! "Y    S\n",
  chars! "  13739.0854166734           1.0000000\n",
  chars! "Y    S\n",
  chars! "   7016.36109438299          1.0000000\n",
  chars! "Y    S\n",
  chars! "   3583.15866840945          1.0000000\n",
  chars! "Y    S\n",
  chars! "   1829.86962476550          1.0000000\n",
  chars! "Y    S\n",
  chars! "    934.489134729211         1.0000000\n",
  chars! "Y    S\n",
  chars! "    477.230689612032         1.0000000\n",
  chars! "Y    S\n",
  chars! "    243.715119463182         1.0000000\n",
  chars! "Y    S\n",
  chars! "    124.461944187287         1.0000000\n",
  chars! "Y    S\n",
  chars! "     63.5609952513411        1.0000000\n",
  chars! "Y    S\n",
  chars! "     32.4597220758638        1.0000000\n",
  chars! "Y    S\n",
  chars! "     16.5767315800501        1.0000000\n",
  chars! "Y    S\n",
  chars! "      8.46550778330153       1.0000000\n",
  chars! "Y    S\n",
  chars! "      4.32321786011102       1.0000000\n",
  chars! "Y    S\n",
  chars! "      2.20780762884063       1.0000000\n",
  chars! "Y    S\n",
  chars! "      1.12749685157938       1.0000000\n",
  chars! "Y    S\n",
  chars! "      0.575797063890465            1.0000000\n",
  chars! "Y    S\n",
  chars! "      0.294051604951678            1.0000000\n",
  chars! "Y    S\n",
  chars! "      0.150168091845475            1.0000000\n",
  chars! "Y    S\n",
  chars! "      7.668876968794858E-002            1.0000000\n",
  chars! "Y    S\n",
  chars! "      3.916389509898707E-002            1.0000000\n",
  chars! "Y    S\n",
  chars! "      2.000046011385546E-002            1.0000000\n",
  chars! "Y    P\n",
  chars! " 103156.238855453            1.0000000\n",
  chars! "Y    P\n",
  chars! "  52680.4659115022           1.0000000\n",
  chars! "Y    P\n",
  chars! "  26903.1860742976           1.0000000\n",
  chars! "Y    P\n",
  chars! "  13739.0854166734           1.0000000\n",
  chars! "Y    P\n",
  chars! "   7016.36109438300          1.0000000\n",
  chars! "Y    P\n",
  chars! "   3583.15866840946          1.0000000\n",
  chars! "Y    P\n",
  chars! "   1829.86962476550          1.0000000\n",
  chars! "Y    P\n",
  chars! "    934.489134729211         1.0000000\n",
  chars! "Y    P\n",
  chars! "    477.230689612032         1.0000000\n",
  chars! "Y    P\n",
  chars! "    243.715119463182         1.0000000\n",
  chars! "Y    P\n",
  chars! "    124.461944187287         1.0000000\n",
  chars! "Y    P\n",
  chars! "     63.5609952513412        1.0000000\n",
  chars! "Y    P\n",
  chars! "     32.4597220758638        1.0000000\n",
  chars! "Y    P\n",
  chars! "     16.5767315800501        1.0000000\n",
  chars! "Y    P\n",
  chars! "      8.46550778330153       1.0000000\n",
  chars! "Y    P\n",
  chars! "      4.32321786011102       1.0000000\n",
  chars! "Y    P\n",
  chars! "      2.20780762884063       1.0000000\n",
  chars! "Y    P\n",
  chars! "      1.12749685157938       1.0000000\n",
  chars! "Y    P\n",
  chars! "      0.575797063890465            1.0000000\n",
  chars! "Y    P\n",
  chars! "      0.294051604951678            1.0000000\n",
  chars! "Y    P\n",
  chars! "      0.150168091845475            1.0000000\n",
  chars! "Y    P\n",
  chars! "      7.668876968794860E-002            1.0000000\n",
  chars! "Y    D\n",
  chars! "   3583.15866840946          1.0000000\n",
  chars! "Y    D\n",
  chars! "   1829.86962476550          1.0000000\n",
  chars! "Y    D\n",
  chars! "    934.489134729210         1.0000000\n",
  chars! "Y    D\n",
  chars! "    477.230689612032         1.0000000\n",
  chars! "Y    D\n",
  chars! "    243.715119463182         1.0000000\n",
  chars! "Y    D\n",
  chars! "    124.461944187287         1.0000000\n",
  chars! "Y    D\n",
  chars! "     63.5609952513411        1.0000000\n",
  chars! "Y    D\n",
  chars! "     32.4597220758638        1.0000000\n",
  chars! "Y    D\n",
  chars! "     16.5767315800501        1.0000000\n",
  chars! "Y    D\n",
  chars! "      8.46550778330153       1.0000000\n",
  chars! "Y    D\n",
  chars! "      4.32321786011102       1.0000000\n",
  chars! "Y    D\n",
  chars! "      2.20780762884063       1.0000000\n",
  chars! "Y    D\n",
  chars! "      1.12749685157938       1.0000000\n",
  chars! "Y    D\n",
  chars! "      0.575797063890464            1.0000000\n",
  chars! "Y    D\n",
  chars! "      0.294051604951678            1.0000000\n",
  chars! "Y    D\n",
  chars! "      0.150168091845475            1.0000000\n",
  chars! "Y    D\n",
  chars! "      7.668876968794858E-002            1.0000000\n",
  chars! "Y    D\n",
  chars! "      3.916389509898707E-002            1.0000000\n"]⟩

theorem ugbs_y_ok : ugbs_y.ok = true := by decide +kernel

/-- `Zr` in `data/ygbs`. -/
noncomputable def ugbs_zr : UBlock := ⟨40, chars! "Zr", [('S', 29, 30), ('P', 23, 22), ('D', 18, 18)], [
  chars! "#BASIS SET: (30s,22p,18d)\n",
  chars! "Zr    S\n",
  chars! " 5815282.94190191            1.0000000\n",
  chars! "Zr    S\n",
  chars! " 2969784.65079438            1.0000000\n",
  chars! "Zr    S\n",
  chars! " 1516627.98873367            1.0000000\n",
  chars! "Zr    S\n",
  chars! " 774520.959152735            1.0000000\n",
  chars! "Zr    S\n",
  chars! " 395537.152566831            1.0000000\n",
  chars! "Zr    S\n",
  chars! " 201995.358823884            1.0000000\n",
  chars! "Zr    S\n",
  chars! " 103156.238855453            1.0000000\n",
  chars! "Zr    S\n",
  chars! "  52680.4659115021           1.0000000\n",
  chars! "Zr    S\n",
  chars! "  26903.1860742975           1.0000000\n",
  chars! "Zr    S\n",
  chars! "  13739.0854166734           1.0000000\n",
  chars! "Zr    S\n",
  chars! "   7016.36109438299          1.0000000\n",
  chars! "Zr    S\n",
  chars! "   3583.15866840945          1.0000000\n",
  chars! "Zr    S\n",
  chars! "   1829.86962476550          1.0000000\n",
  chars! "Zr    S\n",
  chars! "    934.489134729211         1.0000000\n",
  chars! "Zr    S\n",
  chars! "    477.230689612032         1.0000000\n",
  chars! "Zr    S\n",
  chars! "    243.715119463182         1.0000000\n",
  chars! "Zr    S\n",
  chars! "    124.461944187287         1.0000000\n",
  chars! "Zr    S\n",
  chars! "     63.5609952513411        1.0000000\n",
  chars! "Zr    S\n",
  chars! "     32.4597220758638        1.0000000\n",
  chars! "Zr    S\n",
  chars! "     16.5767315800501        1.0000000\n",
  chars! "Zr    S\n",
  chars! "      8.46550778330153       1.0000000\n",
  chars! "Zr    S\n",
  chars! "      4.32321786011102       1.0000000\n",
  chars! "Zr    S\n",
  chars! "      2.20780762884063       1.0000000\n",
  chars! "Zr    S\n",
  chars! "      1.12749685157938       1.0000000\n",
  chars! "Zr    S\n",
  chars! "      0.575797063890465            1.0000000\n",
  chars! "Zr    S\n",
  chars! "      0.294051604951678            1.0000000\n",
  chars! "Zr    S\n",
  chars! "      0.150168091845475            1.0000000\n",
  chars! "Zr    S\n",
  chars! "      7.668876968794858E-002            1.0000000\n",
  chars! "Zr    S\n",
  chars! "      3.916389509898707E-002            1.0000000\n",
  chars! "Zr    S\n",
  chars! "      2.000046011385546E-002            1.0000000\n",
  chars! "Zr    P\n",
  chars! " 103156.238855453            1.0000000\n",
  chars! "Zr    P\n",
  chars! "  52680.4659115022           1.0000000\n",
  chars! "Zr    P\n",
  chars! "  26903.1860742976           1.0000000\n",
  chars! "Zr    P\n",
  chars! "  13739.0854166734           1.0000000\n",
  chars! "Zr    P\n",
  chars! "   7016.36109438300          1.0000000\n",
  chars! "Zr    P\n",
  chars! "   3583.15866840946          1.0000000\n",
  chars! "Zr    P\n",
  chars! "   1829.86962476550          1.0000000\n",
  chars! "Zr    P\n",
  chars! "    934.489134729211         1.0000000\n",
  chars! "Zr    P\n",
  chars! "    477.230689612032         1.0000000\n",
  chars! "Zr    P\n",
  chars! "    243.715119463182         1.0000000\n",
  chars! "Zr    P\n",
  chars! "    124.461944187287         1.0000000\n",
  chars! "Zr    P\n",
  chars! "     63.5609952513412        1.0000000\n",
  chars! "Zr    P\n",
  chars! "     32.4597220758638        1.0000000\n",
  chars! "Zr    P\n",
  chars! "     16.5767315800501        1.0000000\n",
  chars! "Zr    P\n",
  chars! "      8.46550778330153       1.0000000\n",
  chars! "Zr    P\n",
  chars! "      4.32321786011102       1.0000000\n",
  chars! "Zr    P\n",
  chars! "      2.20780762884063       1.0000000\n",
  chars! "Zr    P\n",
  chars! "      1.12749685157938       1.0000000\n",
  chars! "Zr    P\n",
  chars! "      0.575797063890465            1.0000000\n",
  chars! "Zr    P\n",
  chars! "      0.294051604951678            1.0000000\n",
  chars! "Zr    P\n",
  chars! "      0.150168091845475            1.0000000\n",
  chars! "Zr    P\n",
  chars! "      7.668876968794860E-002            1.0000000\n",
  chars! "Zr    D\n",
  chars! "   3583.15866840946          1.0000000\n",
  chars! "Zr    D\n",
  chars! "   1829.86962476550          1.0000000\n",
  chars! "Zr    D\n",
  chars! "    934.489134729210         1.0000000\n",
  chars! "Zr    D\n",
  chars! "    477.230689612032         1.0000000\n",
  chars! "Zr    D\n",
  chars! "    243.715119463182         1.0000000\n",
  chars! "Zr    D\n",
  chars! "    124.461944187287         1.0000000\n",
  chars! "Zr    D\n",
  chars! "     63.5609952513411        1.0000000\n",
  chars! "Zr    D\n",
  chars! "     32.4597220758638        1.0000000\n",
  chars! "Zr    D\n",
  chars! "     16.5767315800501        1.0000000\n",
  chars! "Zr    D\n",
  chars! "      8.46550778330153       1.0000000\n",
  chars! "Zr    D\n",
  chars! "      4.32321786011102       1.0000000\n",
  chars! "Zr    D\n",
  chars! "      2.20780762884063       1.0000000\n",
  chars! "Zr    D\n",
  chars! "      1.12749685157938       1.0000000\n",
  chars! "Zr    D\n",
  chars! "      0.575797063890464            1.0000000\n",
  chars! "Zr    D\n",
  chars! "      0.294051604951678            1.0000000\n",
  chars! "Zr    D\n",
  chars! "      0.150168091845475            1.0000000\n",
  chars! "Zr    D\n",
  chars! "      7.668876968794858E-002            1.0000000\n",
  chars! "Zr    D\n",
  chars! "      3.916389509898707E-002            1.0000000\n"]⟩

theorem ugbs_zr_ok : ugbs_zr.ok = true := by decide +kernel

/-- `Nb` in `data/ygbs`. -/
noncomputable def ugbs_nb : UBlock := ⟨41, chars! "Nb", [('S', 30, 31), ('P', 24, 23), ('D', 18, 18)], [
  chars! "#BASIS SET: (31s,23p,18d)\n",
  chars! "Nb    S\n",
  chars! " 11387194.5850786            1.0000000\n",
  chars! "Nb    S\n",
  chars! " 5815282.94190191            1.0000000\n",
  chars! "Nb    S\n",
  chars! " 2969784.65079438            1.0000000\n",
  chars! "Nb    S\n",
  chars! " 1516627.98873367            1.0000000\n",
  chars! "Nb    S\n",
  chars! " 774520.959152735            1.0000000\n",
  chars! "Nb    S\n",
  chars! " 395537.152566831            1.0000000\n",
  chars! "Nb    S\n",
  chars! " 201995.358823884            1.0000000\n",
  chars! "Nb    S\n",
  chars! " 103156.238855453            1.0000000\n",
  chars! "Nb    S\n",
  chars! "  52680.4659115021           1.0000000\n",
  chars! "Nb    S\n",
  chars! "  26903.1860742975           1.0000000\n",
  chars! "Nb    S\n",
  chars! "  13739.0854166734           1.0000000\n",
  chars! "Nb    S\n",
  chars! "   7016.36109438299          1.0000000\n",
  chars! "Nb    S\n",
  chars! "   3583.15866840945          1.0000000\n",
  chars! "Nb    S\n",
  chars! "   1829.86962476550          1.0000000\n",
  chars! "Nb    S\n",
  chars! "    934.489134729211         1.0000000\n",
  chars! "Nb    S\n",
  chars! "    477.230689612032         1.0000000\n",
  chars! "Nb    S\n",
  chars! "    243.715119463182         1.0000000\n",
  chars! "Nb    S\n",
  chars! "    124.461944187287         1.0000000\n",
  chars! "Nb    S\n",
  chars! "     63.5609952513411        1.0000000\n",
  chars! "Nb    S\n",
  chars! "     32.4597220758638        1.0000000\n",
  chars! "Nb    S\n",
  chars! "     16.5767315800501        1.0000000\n",
  chars! "Nb    S\n",
  chars! "      8.46550778330153       1.0000000\n",
  chars! "Nb    S\n",
  chars! "      4.32321786011102       1.0000000\n",
  chars! "Nb    S\n",
  chars! "      2.20780762884063       1.0000000\n",
  chars! "Nb    S\n",
  chars! "      1.12749685157938       1.0000000\n",
  chars! "Nb    S\n",
  chars! "      0.575797063890465            1.0000000\n",
  chars! "Nb    S\n",
  chars! "      0.294051604951678            1.0000000\n",
  chars! "Nb    S\n",
  chars! "      0.150168091845475            1.0000000\n",
  chars! "Nb    S\n",
  chars! "      7.668876968794858E-002            1.0000000\n",
  chars! "Nb    S\n",
  chars! "      3.916389509898707E-002            1.0000000\n",
  chars! "Nb    S\n",
  chars! "      2.000046011385546E-002            1.0000000\n",
  chars! "Nb    P\n",
  chars! " 201995.358823884            1.0000000\n",
  chars! "Nb    P\n",
  chars! " 103156.238855453            1.0000000\n",
  chars! "Nb    P\n",
  chars! "  52680.4659115022           1.0000000\n",
  chars! "Nb    P\n",
  chars! "  26903.1860742976           1.0000000\n",
  chars! "Nb    P\n",
  chars! "  13739.0854166734           1.0000000\n",
  chars! "Nb    P\n",
  chars! "   7016.36109438300          1.0000000\n",
  chars! "Nb    P\n",
  chars! "   3583.15866840946          1.0000000\n",
  chars! "Nb    P\n",
  chars! "   1829.86962476550          1.0000000\n",
  chars! "Nb    P\n",
  chars! "    934.489134729211         1.0000000\n",
  chars! "Nb    P\n",
  chars! "    477.230689612032         1.0000000\n",
  chars! "Nb    P\n",
  chars! "    243.715119463182         1.0000000\n",
  chars! "Nb    P\n",
  chars! "    124.461944187287         1.0000000\n",
  chars! "Nb    P\n",
  chars! "     63.5609952513412        1.0000000\n",
  chars! "Nb    P\n",
  chars! "     32.4597220758638        1.0000000\n",
  chars! "Nb    P\n",
  chars! "     16.5767315800501        1.0000000\n",
  chars! "Nb    P\n",
  chars! "      8.46550778330153       1.0000000\n",
  chars! "Nb    P\n",
  chars! "      4.32321786011102       1.0000000\n",
  chars! "Nb    P\n",
  chars! "      2.20780762884063       1.0000000\n",
  chars! "Nb    P\n",
  chars! "      1.12749685157938       1.0000000\n",
  chars! "Nb    P\n",
  chars! "      0.575797063890465            1.0000000\n",
  chars! "Nb    P\n",
  chars! "      0.294051604951678            1.0000000\n",
  chars! "Nb    P\n",
  chars! "      0.150168091845475            1.0000000\n",
  chars! "Nb    P\n",
  chars! "      7.668876968794860E-002            1.0000000\n",
  chars! "Nb    D\n",
  chars! "   3583.15866840946          1.0000000\n",
  chars! "Nb    D\n",
  chars! "   1829.86962476550          1.0000000\n",
  chars! "Nb    D\n",
  chars! "    934.489134729210         1.0000000\n",
  chars! "Nb    D\n",
  chars! "    477.230689612032         1.0000000\n",
  chars! "Nb    D\n",
  chars! "    243.715119463182         1.0000000\n",
  chars! "Nb    D\n",
  chars! "    124.461944187287         1.0000000\n",
  chars! "Nb    D\n",
  chars! "     63.5609952513411        1.0000000\n",
  chars! "Nb    D\n",
  chars! "     32.4597220758638        1.0000000\n",
  chars! "Nb    D\n",
  chars! "     16.5767315800501        1.0000000\n",
  chars! "Nb    D\n",
  chars! "      8.46550778330153       1.0000000\n",
  chars! "Nb    D\n",
  chars! "      4.32321786011102       1.0000000\n",
  chars! "Nb    D\n",
  chars! "      2.20780762884063       1.0000000\n",
  chars! "Nb    D\n",
  chars! "      1.12749685157938       1.0000000\n",
  chars! "Nb    D\n",
  chars! "      0.575797063890464            1.0000000\n",
  chars! "Nb    D\n",
  chars! "      0.294051604951678            1.0000000\n",
  chars! "Nb    D\n",
  chars! "      0.150168091845475            1.0000000\n",
  chars! "Nb    D\n",
  chars! "      7.668876968794858E-002            1.0000000\n",
  chars! "Nb    D\n",
  chars! "      3.916389509898707E-002            1.0000000\n"]⟩

theorem ugbs_nb_ok : ugbs_nb.ok = true := by decide +kernel

/-- `Mo` in `data/ygbs`. -/
noncomputable def ugbs_mo : UBlock := ⟨42, chars! "Mo", [('S', 30, 30), ('P', 24, 23), ('D', 18, 18)], [
  chars! "#BASIS SET: (30s,23p,18d)\n",
  chars! "Mo    S\n",
  chars! " 11387194.5850786            1.0000000\n",
  chars! "Mo    S\n",
  chars! " 5815282.94190191            1.0000000\n",
  chars! "Mo    S\n",
  chars! " 2969784.65079438            1.0000000\n",
  chars! "Mo    S\n",
  chars! " 1516627.98873367            1.0000000\n",
  chars! "Mo    S\n",
  chars! " 774520.959152738            1.0000000\n",
  chars! "Mo    S\n",
  chars! " 395537.152566831            1.0000000\n",
  chars! "Mo    S\n",
  chars! " 201995.358823884            1.0000000\n",
  chars! "Mo    S\n",
  chars! " 103156.238855453            1.0000000\n",
  chars! "Mo    S\n",
  chars! "  52680.4659115021           1.0000000\n",
  chars! "Mo    S\n",
  chars! "  26903.1860742976           1.0000000\n",
  chars! "Mo    S\n",
  chars! "  13739.0854166734           1.0000000\n",
  chars! "Mo    S\n",
  chars! "   7016.36109438299          1.0000000\n",
  chars! "Mo    S\n",
  chars! "   3583.15866840946          1.0000000\n",
  chars! "Mo    S\n",
  chars! "   1829.86962476550          1.0000000\n",
  chars! "Mo    S\n",
  chars! "    934.489134729210         1.0000000\n",
  chars! "Mo    S\n",
  chars! "    477.230689612032         1.0000000\n",
  chars! "Mo    S\n",
  chars! "    243.715119463182         1.0000000\n",
  chars! "Mo    S\n",
  chars! "    124.461944187287         1.0000000\n",
  chars! "Mo    S\n",
  chars! "     63.5609952513411        1.0000000\n",
  chars! "Mo    S\n",
  chars! "     32.4597220758638        1.0000000\n",
  chars! "Mo    S\n",
  chars! "     16.5767315800501        1.0000000\n",
  chars! "Mo    S\n",
  chars! "      8.46550778330153       1.0000000\n",
  chars! "Mo    S\n",
  chars! "      4.32321786011102       1.0000000\n",
  chars! "Mo    S\n",
  chars! "      2.20780762884063       1.0000000\n",
  chars! "Mo    S\n",
  chars! "      1.12749685157938       1.0000000\n",
  chars! "Mo    S\n",
  chars! "      0.575797063890464            1.0000000\n",
  chars! "Mo    S\n",
  chars! "      0.294051604951678            1.0000000\n",
  chars! "Mo    S\n",
  chars! "      0.150168091845475            1.0000000\n",
  chars! "Mo    S\n",
  chars! "      7.668876968794858E-002            1.0000000\n",
  chars! "Mo    S\n",
  chars! "      3.916389509898707E-002            1.0000000\n",
  chars! "Mo    P\n",
  chars! " 201995.358823884            1.0000000\n",
  chars! "Mo    P\n",
  chars! " 103156.238855453            1.0000000\n",
  chars! "Mo    P\n",
  chars! "  52680.4659115022           1.0000000\n",
  chars! "Mo    P\n",
  chars! "  26903.1860742976           1.0000000\n",
  chars! "Mo    P\n",
  chars! "  13739.0854166734           1.0000000\n",
  chars! "Mo    P\n",
  chars! "   7016.36109438300          1.0000000\n",
  chars! "Mo    P\n",
  chars! "   3583.15866840946          1.0000000\n",
  chars! "Mo    P\n",
  chars! "   1829.86962476550          1.0000000\n",
  chars! "Mo    P\n",
  chars! "    934.489134729211         1.0000000\n",
  chars! "Mo    P\n",
  chars! "    477.230689612032         1.0000000\n",
  chars! "Mo    P\n",
  chars! "    243.715119463182         1.0000000\n",
  chars! "Mo    P\n",
  chars! "    124.461944187287         1.0000000\n",
  chars! "Mo    P\n",
  chars! "     63.5609952513412        1.0000000\n",
  chars! "Mo    P\n",
  chars! "     32.4597220758638        1.0000000\n",
  chars! "Mo    P\n",
  chars! "     16.5767315800501        1.0000000\n",
  chars! "Mo    P\n",
  chars! "      8.46550778330153       1.0000000\n",
  chars! "Mo    P\n",
  chars! "      4.32321786011102       1.0000000\n",
  chars! "Mo    P\n",
  chars! "      2.20780762884063       1.0000000\n",
  chars! "Mo    P\n",
  chars! "      1.12749685157938       1.0000000\n",
  chars! "Mo    P\n",
  chars! "      0.575797063890465            1.0000000\n",
  chars! "Mo    P\n",
  chars! "      0.294051604951678            1.0000000\n",
  chars! "Mo    P\n",
  chars! "      0.150168091845475            1.0000000\n",
  chars! "Mo    P\n",
  chars! "      7.668876968794860E-002            1.0000000\n",
  chars! "Mo    D\n",
  chars! "   3583.15866840946          1.0000000\n",
  chars! "Mo    D\n",
  chars! "   1829.86962476550          1.0000000\n",
  chars! "Mo    D\n",
  chars! "    934.489134729210         1.0000000\n",
  chars! "Mo    D\n",
  chars! "    477.230689612032         1.0000000\n",
  chars! "Mo    D\n",
  chars! "    243.715119463182         1.0000000\n",
  chars! "Mo    D\n",
  chars! "    124.461944187287         1.0000000\n",
  chars! "Mo    D\n",
  chars! "     63.5609952513411        1.0000000\n",
  chars! "Mo    D\n",
  chars! "     32.4597220758638        1.0000000\n",
  chars! "Mo    D\n",
  chars! "     16.5767315800501        1.0000000\n",
  chars! "Mo    D\n",
  chars! "      8.46550778330153       1.0000000\n",
  chars! "Mo    D\n",
  chars! "      4.32321786011102       1.0000000\n",
  chars! "Mo    D\n",
  chars! "      2.20780762884063       1.0000000\n",
  chars! "Mo    D\n",
  chars! "      1.12749685157938       1.0000000\n",
  chars! "Mo    D\n",
  chars! "      0.575797063890464            1.0000000\n",
  chars! "Mo    D\n",
  chars! "      0.294051604951678            1.0000000\n",
  chars! "Mo    D\n",
  chars! "      0.150168091845475            1.0000000\n",
  chars! "Mo    D\n",
  chars! "      7.668876968794858E-002            1.0000000\n",
  chars! "Mo    D\n",
  chars! "      3.916389509898707E-002            1.0000000\n"]⟩

theorem ugbs_mo_ok : ugbs_mo.ok = true := by decide +kernel

/-- `Tc` in `data/ygbs`. -/
noncomputable def ugbs_tc : UBlock := ⟨43, chars! "Tc", [('S', 31, 32), ('P', 23, 22), ('D', 18, 17)], [
  chars! "#BASIS SET: (32s,22p,17d)\n",
  chars! "Tc    S\n",
  chars! " 22297831.7330222            1.0000000\n",
  chars! "Tc    S\n",
  chars! " 11387194.5850786            1.0000000\n",
  chars! "Tc    S\n",
  chars! " 5815282.94190191            1.0000000\n",
  chars! "Tc    S\n",
  chars! " 2969784.65079438            1.0000000\n",
  chars! "Tc    S\n",
  chars! " 1516627.98873367            1.0000000\n",
  chars! "Tc    S\n",
  chars! " 774520.959152735            1.0000000\n",
  chars! "Tc    S\n",
  chars! " 395537.152566831            1.0000000\n",
  chars! "Tc    S\n",
  chars! " 201995.358823884            1.0000000\n",
  chars! "Tc    S\n",
  chars! " 103156.238855453            1.0000000\n",
  chars! "Tc    S\n",
  chars! "  52680.4659115021           1.0000000\n",
  chars! "Tc    S\n",
  chars! "  26903.1860742975           1.0000000\n",
  chars! "Tc    S\n",
  chars! "  13739.0854166734           1.0000000\n",
  chars! "Tc    S\n",
  chars! "   7016.36109438299          1.0000000\n",
  chars! "Tc    S\n",
  chars! "   3583.15866840945          1.0000000\n",
  chars! "Tc    S\n",
  chars! "   1829.86962476550          1.0000000\n",
  chars! "Tc    S\n",
  chars! "    934.489134729211         1.0000000\n",
  chars! "Tc    S\n",
  chars! "    477.230689612032         1.0000000\n",
  chars! "Tc    S\n",
  chars! "    243.715119463182         1.0000000\n",
  chars! "Tc    S\n",
  chars! "    124.461944187287         1.0000000\n",
  chars! "Tc    S\n",
  chars! "     63.5609952513411        1.0000000\n",
  chars! "Tc    S\n",
  chars! "     32.4597220758638        1.0000000\n",
  chars! "Tc    S\n",
  chars! "     16.5767315800501        1.0000000\n",
  chars! "Tc    S\n",
  chars! "      8.46550778330153       1.0000000\n",
  chars! "Tc    S\n",
  chars! "      4.32321786011102       1.0000000\n",
  chars! "Tc    S\n",
  chars! "      2.20780762884063       1.0000000\n",
  chars! "Tc    S\n",
  chars! "      1.12749685157938       1.0000000\n",
  chars! "Tc    S\n",
  chars! "      0.575797063890465            1.0000000\n",
  chars! "Tc    S\n",
  chars! "      0.294051604951678            1.0000000\n",
  chars! "Tc    S\n",
  chars! "      0.150168091845475            1.0000000\n",
  chars! "Tc    S\n",
  chars! "      7.668876968794858E-002            1.0000000\n",
  chars! "Tc    S\n",
  chars! "      3.916389509898707E-002            1.0000000\n",
  chars! "Tc    S\n",
  chars! "      2.000046011385546E-002            1.0000000\n",
  chars! "Tc    P\n",
  chars! " 103156.238855453            1.0000000\n",
  chars! "Tc    P\n",
  chars! "  52680.4659115022           1.0000000\n",
  chars! "Tc    P\n",
  chars! "  26903.1860742976           1.0000000\n",
  chars! "Tc    P\n",
  chars! "  13739.0854166734           1.0000000\n",
  chars! "Tc    P\n",
  chars! "   7016.36109438300          1.0000000\n",
  chars! "Tc    P\n",
  chars! "   3583.15866840946          1.0000000\n",
  chars! "Tc    P\n",
  chars! "   1829.86962476550          1.0000000\n",
  chars! "Tc    P\n",
  chars! "    934.489134729211         1.0000000\n",
  chars! "Tc    P\n",
  chars! "    477.230689612032         1.0000000\n",
  chars! "Tc    P\n",
  chars! "    243.715119463182         1.0000000\n",
  chars! "Tc    P\n",
  chars! "    124.461944187287         1.0000000\n",
  chars! "Tc    P\n",
  chars! "     63.5609952513412        1.0000000\n",
  chars! "Tc    P\n",
  chars! "     32.4597220758638        1.0000000\n",
  chars! "Tc    P\n",
  chars! "     16.5767315800501        1.0000000\n",
  chars! "Tc    P\n",
  chars! "      8.46550778330153       1.0000000\n",
  chars! "Tc    P\n",
  chars! "      4.32321786011102       1.0000000\n",
  chars! "Tc    P\n",
  chars! "      2.20780762884063       1.0000000\n",
  chars! "Tc    P\n",
  chars! "      1.12749685157938       1.0000000\n",
  chars! "Tc    P\n",
  chars! "      0.575797063890465            1.0000000\n",
  chars! "Tc    P\n",
  chars! "      0.294051604951678            1.0000000\n",
  chars! "Tc    P\n",
  chars! "      0.150168091845475            1.0000000\n",
  chars! "Tc    P\n",
  chars! "      7.668876968794860E-002            1.0000000\n",
  chars! "Tc    D\n",
  chars! "   3583.15866840946          1.0000000\n",
  chars! "Tc    D\n",
  chars! "   1829.86962476550          1.0000000\n",
  chars! "Tc    D\n",
  chars! "    934.489134729211         1.0000000\n",
  chars! "Tc    D\n",
  chars! "    477.230689612032         1.0000000\n",
  chars! "Tc    D\n",
  chars! "    243.715119463182         1.0000000\n",
  chars! "Tc    D\n",
  chars! "    124.461944187287         1.0000000\n",
  chars! "Tc    D\n",
  chars! "     63.5609952513412        1.0000000\n",
  chars! "Tc    D\n",
  chars! "     32.4597220758638        1.0000000\n",
  chars! "Tc    D\n",
  chars! "     16.5767315800501        1.0000000\n",
  chars! "Tc    D\n",
  chars! "      8.46550778330153       1.0000000\n",
  chars! "Tc    D\n",
  chars! "      4.32321786011102       1.0000000\n",
  chars! "Tc    D\n",
  chars! "      2.20780762884063       1.0000000\n",
  chars! "Tc    D\n",
  chars! "      1.12749685157938       1.0000000\n",
  chars! "Tc    D\n",
  chars! "      0.575797063890465            1.0000000\n",
  chars! "Tc    D\n",
  chars! "      0.294051604951678            1.0000000\n",
  chars! "Tc    D\n",
  chars! "      0.150168091845475            1.0000000\n",
  chars! "Tc    D\n",
  chars! "      7.668876968794860E-002            1.0000000\n"]⟩

theorem ugbs_tc_ok : ugbs_tc.ok = true := by decide +kernel

/-- `Ru` in `data/ygbs`. -/
noncomputable def ugbs_ru : UBlock := ⟨44, chars! "Ru", [('S', 30, 31), ('P', 24, 22), ('D', 18, 17)], [
  chars! "#BASIS SET: (31s,22p,17d)\n",
  chars! "Ru    S\n",
  chars! " 11387194.5850786            1.0000000\n",
  chars! "Ru    S\n",
  chars! " 5815282.94190191            1.0000000\n",
  chars! "Ru    S\n",
  chars! " 2969784.65079438            1.0000000\n",
  chars! "Ru    S\n",
  chars! " 1516627.98873367            1.0000000\n",
  chars! "Ru    S\n",
  chars! " 774520.959152735            1.0000000\n",
  chars! "Ru    S\n",
  chars! " 395537.152566831            1.0000000\n",
  chars! "Ru    S\n",
  chars! " 201995.358823884            1.0000000\n",
  chars! "Ru    S\n",
  chars! " 103156.238855453            1.0000000\n",
  chars! "Ru    S\n",
  chars! "  52680.4659115021           1.0000000\n",
  chars! "Ru    S\n",
  chars! "  26903.1860742975           1.0000000\n",
  chars! "Ru    S\n",
  chars! "  13739.0854166734           1.0000000\n",
  chars! "Ru    S\n",
  chars! "   7016.36109438299          1.0000000\n",
  chars! "Ru    S\n",
  chars! "   3583.15866840945          1.0000000\n",
  chars! "Ru    S\n",
  chars! "   1829.86962476550          1.0000000\n",
  chars! "Ru    S\n",
  chars! "    934.489134729211         1.0000000\n",
  chars! "Ru    S\n",
  chars! "    477.230689612032         1.0000000\n",
  chars! "Ru    S\n",
  chars! "    243.715119463182         1.0000000\n",
  chars! "Ru    S\n",
  chars! "    124.461944187287         1.0000000\n",
  chars! "Ru    S\n",
  chars! "     63.5609952513411        1.0000000\n",
  chars! "Ru    S\n",
  chars! "     32.4597220758638        1.0000000\n",
  chars! "Ru    S\n",
  chars! "     16.5767315800501        1.0000000\n",
  chars! "Ru    S\n",
  chars! "      8.46550778330153       1.0000000\n",
  chars! "Ru    S\n",
  chars! "      4.32321786011102       1.0000000\n",
  chars! "Ru    S\n",
  chars! "      2.20780762884063       1.0000000\n",
  chars! "Ru    S\n",
  chars! "      1.12749685157938       1.0000000\n",
  chars! "Ru    S\n",
  chars! "      0.575797063890465            1.0000000\n",
  chars! "Ru    S\n",
  chars! "      0.294051604951678            1.0000000\n",
  chars! "Ru    S\n",
  chars! "      0.150168091845475            1.0000000\n",
  chars! "Ru    S\n",
  chars! "      7.668876968794858E-002            1.0000000\n",
  chars! "Ru    S\n",
  chars! "      3.916389509898707E-002            1.0000000\n",
  chars! "Ru    S\n",
  chars! "      2.000046011385546E-002            1.0000000\n",
  chars! "Ru    P\n",
  chars! " 201995.358823884            1.0000000\n",
  chars! "Ru    P\n",
  chars! " 103156.238855453            1.0000000\n",
  chars! "Ru    P\n",
  chars! "  52680.4659115021           1.0000000\n",
  chars! "Ru    P\n",
  chars! "  26903.1860742975           1.0000000\n",
  chars! "Ru    P\n",
  chars! "  13739.0854166734           1.0000000\n",
  chars! "Ru    P\n",
  chars! "   7016.36109438299          1.0000000\n",
  chars! "Ru    P\n",
  chars! "   3583.15866840945          1.0000000\n",
  chars! "Ru    P\n",
  chars! "   1829.86962476550          1.0000000\n",
  chars! "Ru    P\n",
  chars! "    934.489134729210         1.0000000\n",
  chars! "Ru    P\n",
  chars! "    477.230689612032         1.0000000\n",
  chars! "Ru    P\n",
  chars! "    243.715119463182         1.0000000\n",
  chars! "Ru    P\n",
  chars! "    124.461944187287         1.0000000\n",
  chars! "Ru    P\n",
  chars! "     63.5609952513411        1.0000000\n",
  chars! "Ru    P\n",
  chars! "     32.4597220758638        1.0000000\n",
  chars! "Ru    P\n",
  chars! "     16.5767315800501        1.0000000\n",
  chars! "Ru    P\n",
  chars! "      8.46550778330153       1.0000000\n",
  chars! "Ru    P\n",
  chars! "      4.32321786011102       1.0000000\n",
  chars! "Ru    P\n",
  chars! "      2.20780762884063       1.0000000\n",
  chars! "Ru    P\n",
  chars! "      1.12749685157938       1.0000000\n",
  chars! "Ru    P\n",
  chars! "      0.575797063890464            1.0000000\n",
  chars! "Ru    P\n",
  chars! "      0.294051604951678            1.0000000\n",
  chars! "Ru    P\n",
  chars! "      0.150168091845475            1.0000000\n",
  chars! "Ru    D\n",
  chars! "   3583.15866840946          1.0000000\n",
  chars! "Ru    D\n",
  chars! "   1829.86962476550          1.0000000\n",
  chars! "Ru    D\n",
  chars! "    934.489134729211         1.0000000\n",
  chars! "Ru    D\n",
  chars! "    477.230689612032         1.0000000\n",
  chars! "Ru    D\n",
  chars! "    243.715119463182         1.0000000\n",
  chars! "Ru    D\n",
  chars! "    124.461944187287         1.0000000\n",
  chars! "Ru    D\n",
  chars! "     63.5609952513412        1.0000000\n",
  chars! "Ru    D\n",
  chars! "     32.4597220758638        1.0000000\n",
  chars! "Ru    D\n",
  chars! "     16.5767315800501        1.0000000\n",
  chars! "Ru    D\n",
  chars! "      8.46550778330153       1.0000000\n",
  chars! "Ru    D\n",
  chars! "      4.32321786011102       1.0000000\n",
  chars! "Ru    D\n",
  chars! "      2.20780762884063       1.0000000\n",
  chars! "Ru    D\n",
  chars! "      1.12749685157938       1.0000000\n",
  chars! "Ru    D\n",
  chars! "      0.575797063890465            1.0000000\n",
  chars! "Ru    D\n",
  chars! "      0.294051604951678            1.0000000\n",
  chars! "Ru    D\n",
  chars! "      0.150168091845475            1.0000000\n",
  chars! "Ru    D\n",
  chars! "      7.668876968794860E-002            1.0000000\n"]⟩

theorem ugbs_ru_ok : ugbs_ru.ok = true := by decide +kernel

/-- `Rh` in `data/ygbs`. -/
noncomputable def ugbs_rh : UBlock := ⟨45, chars! "Rh", [('S', 31, 32), ('P', 23, 21), ('D', 18, 17)], [
  chars! "#BASIS SET: (32s,21p,17d)\n",
  chars! "Rh    S\n",
  chars! " 22297831.7330222            1.0000000\n",
  chars! "Rh    S\n",
  chars! " 11387194.5850786            1.0000000\n",
  chars! "Rh    S\n",
  chars! " 5815282.94190191            1.0000000\n",
  chars! "Rh    S\n",
  chars! " 2969784.65079438            1.0000000\n",
  chars! "Rh    S\n",
  chars! " 1516627.98873367            1.0000000\n",
  chars! "Rh    S\n",
  chars! " 774520.959152735            1.0000000\n",
  chars! "Rh    S\n",
  chars! " 395537.152566831            1.0000000\n",
  chars! "Rh    S\n",
  chars! " 201995.358823884            1.0000000\n",
  chars! "Rh    S\n",
  chars! " 103156.238855453            1.0000000\n",
  chars! "Rh    S\n",
  chars! "  52680.4659115021           1.0000000\n",
  chars! "Rh    S\n",
  chars! "  26903.1860742975           1.0000000\n",
  chars! "Rh    S\n",
  chars! "  13739.0854166734           1.0000000\n",
  chars! "Rh    S\n",
  chars! "   7016.36109438299          1.0000000\n",
  chars! "Rh    S\n",
  chars! "   3583.15866840945          1.0000000\n",
  chars! "Rh    S\n",
  chars! "   1829.86962476550          1.0000000\n",
  chars! "Rh    S\n",
  chars! "    934.489134729211         1.0000000\n",
  chars! "Rh    S\n",
  chars! "    477.230689612032         1.0000000\n",
  chars! "Rh    S\n",
  chars! "    243.715119463182         1.0000000\n",
  chars! "Rh    S\n",
  chars! "    124.461944187287         1.0000000\n",
  chars! "Rh    S\n",
  chars! "     63.5609952513411        1.0000000\n",
  chars! "Rh    S\n",
  chars! "     32.4597220758638        1.0000000\n",
  chars! "Rh    S\n",
  chars! "     16.5767315800501        1.0000000\n",
  chars! "Rh    S\n",
  chars! "      8.46550778330153       1.0000000\n",
  chars! "Rh    S\n",
  chars! "      4.32321786011102       1.0000000\n",
  chars! "Rh    S\n",
  chars! "      2.20780762884063       1.0000000\n",
  chars! "Rh    S\n",
  chars! "      1.12749685157938       1.0000000\n",
  chars! "Rh    S\n",
  chars! "      0.575797063890465            1.0000000\n",
  chars! "Rh    S\n",
  chars! "      0.294051604951678            1.0000000\n",
  chars! "Rh    S\n",
  chars! "      0.150168091845475            1.0000000\n",
  chars! "Rh    S\n",
  chars! "      7.668876968794858E-002            1.0000000\n",
  chars! "Rh    S\n",
  chars! "      3.916389509898707E-002            1.0000000\n",
  chars! "Rh    S\n",
  chars! "      2.000046011385546E-002            1.0000000\n",
  chars! "Rh    P\n",
  chars! " 103156.238855453            1.0000000\n",
  chars! "Rh    P\n",
  chars! "  52680.4659115021           1.0000000\n",
  chars! "Rh    P\n",
  chars! "  26903.1860742975           1.0000000\n",
  chars! "Rh    P\n",
  chars! "  13739.0854166734           1.0000000\n",
  chars! "Rh    P\n",
  chars! "   7016.36109438299          1.0000000\n",
  chars! "Rh    P\n",
  chars! "   3583.15866840945          1.0000000\n",
  chars! "Rh    P\n",
  chars! "   1829.86962476550          1.0000000\n",
  chars! "Rh    P\n",
  chars! "    934.489134729210         1.0000000\n",
  chars! "Rh    P\n",
  chars! "    477.230689612032         1.0000000\n",
  chars! "Rh    P\n",
  chars! "    243.715119463182         1.0000000\n",
  chars! "Rh    P\n",
  chars! "    124.461944187287         1.0000000\n",
  chars! "Rh    P\n",
  chars! "     63.5609952513411        1.0000000\n",
  chars! "Rh    P\n",
  chars! "     32.4597220758638        1.0000000\n",
  chars! "Rh    P\n",
  chars! "     16.5767315800501        1.0000000\n",
  chars! "Rh    P\n",
  chars! "      8.46550778330153       1.0000000\n",
  chars! "Rh    P\n",
  chars! "      4.32321786011102       1.0000000\n",
  chars! "Rh    P\n",
  chars! "      2.20780762884063       1.0000000\n",
  chars! "Rh    P\n",
  chars! "      1.12749685157938       1.0000000\n",
  chars! "Rh    P\n",
  chars! "      0.575797063890464            1.0000000\n",
  chars! "Rh    P\n",
  chars! "      0.294051604951678            1.0000000\n",
  chars! "Rh    P\n",
  chars! "      0.150168091845475            1.0000000\n",
  chars! "Rh    D\n",
  chars! "   3583.15866840946          1.0000000\n",
  chars! "Rh    D\n",
  chars! "   1829.86962476550          1.0000000\n",
  chars! "Rh    D\n",
  chars! "    934.489134729211         1.0000000\n",
  chars! "Rh    D\n",
  chars! "    477.230689612032         1.0000000\n",
  chars! "Rh    D\n",
  chars! "    243.715119463182         1.0000000\n",
  chars! "Rh    D\n",
  chars! "    124.461944187287         1.0000000\n",
  chars! "Rh    D\n",
  chars! "     63.5609952513412        1.0000000\n",
  chars! "Rh    D\n",
  chars! "     32.4597220758638        1.0000000\n",
  chars! "Rh    D\n",
  chars! "     16.5767315800501        1.0000000\n",
  chars! "Rh    D\n",
  chars! "      8.46550778330153       1.0000000\n",
  chars! "Rh    D\n",
  chars! "      4.32321786011102       1.0000000\n",
  chars! "Rh    D\n",
  chars! "      2.20780762884063       1.0000000\n",
  chars! "Rh    D\n",
  chars! "      1.12749685157938       1.0000000\n",
  chars! "Rh    D\n",
  chars! "      0.575797063890465            1.0000000\n",
  chars! "Rh    D\n",
  chars! "      0.294051604951678            1.0000000\n",
  chars! "Rh    D\n",
  chars! "      0.150168091845475            1.0000000\n",
  chars! "Rh    D\n",
  chars! "      7.668876968794860E-002            1.0000000\n"]⟩

theorem ugbs_rh_ok : ugbs_rh.ok = true := by decide +kernel

/-- `Pd` in `data/ygbs`. -/
noncomputable def ugbs_pd : UBlock := ⟨46, chars! "Pd", [('S', 31, 29), ('P', 24, 22), ('D', 19, 18)], [
  chars! "#BASIS SET: (29s,22p,18d)\n",
  chars! "Pd    S\n",
  chars! " 22297831.7330223            1.0000000\n",
  chars! "Pd    S\n",
  chars! " 11387194.5850786            1.0000000\n",
  chars! "Pd    S\n",
  chars! " 5815282.94190191            1.0000000\n",
  chars! "Pd    S\n",
  chars! " 2969784.65079439            1.0000000\n",
  chars! "Pd    S\n",
  chars! " 1516627.98873367            1.0000000\n",
  chars! "Pd    S\n",
  chars! " 774520.959152738            1.0000000\n",
  chars! "Pd    S\n",
  chars! " 395537.152566831            1.0000000\n",
  chars! "Pd    S\n",
  chars! " 201995.358823884            1.0000000\n",
  chars! "Pd    S\n",
  chars! " 103156.238855453            1.0000000\n",
  chars! "Pd    S\n",
  chars! "  52680.4659115021           1.0000000\n",
  chars! "Pd    S\n",
  chars! "  26903.1860742975           1.0000000\n",
  chars! "Pd    S\n",
  chars! "  13739.0854166734           1.0000000\n",
  chars! "Pd    S\n",
  chars! "   7016.36109438299          1.0000000\n",
  chars! "Pd    S\n",
  chars! "   3583.15866840945          1.0000000\n",
  chars! "Pd    S\n",
  chars! "   1829.86962476550          1.0000000\n",
  chars! "Pd    S\n",
  chars! "    934.489134729210         1.0000000\n",
  chars! "Pd    S\n",
  chars! "    477.230689612032         1.0000000\n",
  chars! "Pd    S\n",
  chars! "    243.715119463182         1.0000000\n",
  chars! "Pd    S\n",
  chars! "    124.461944187287         1.0000000\n",
  chars! "Pd    S\n",
  chars! "     63.5609952513411        1.0000000\n",
  chars! "Pd    S\n",
  chars! "     32.4597220758638        1.0000000\n",
  chars! "Pd    S\n",
  chars! "     16.5767315800501        1.0000000\n",
  chars! "Pd    S\n",
  chars! "      8.46550778330153       1.0000000\n",
  chars! "Pd    S\n",
  chars! "      4.32321786011102       1.0000000\n",
  chars! "Pd    S\n",
  chars! "      2.20780762884063       1.0000000\n",
  chars! "Pd    S\n",
  chars! "      1.12749685157938       1.0000000\n",
  chars! "Pd    S\n",
  chars! "      0.575797063890464            1.0000000\n",
  chars! "Pd    S\n",
  chars! "      0.294051604951678            1.0000000\n",
  chars! "Pd    S\n",
  chars! "      0.150168091845475            1.0000000\n",
  chars! "Pd    P\n",
  chars! " 201995.358823884            1.0000000\n",
  chars! "Pd    P\n",
  chars! " 103156.238855453            1.0000000\n",
  chars! "Pd    P\n",
  chars! "  52680.4659115021           1.0000000\n",
  chars! "Pd    P\n",
  chars! "  26903.1860742975           1.0000000\n",
  chars! "Pd    P\n",
  chars! "  13739.0854166734           1.0000000\n",
  chars! "Pd    P\n",
  chars! "   7016.36109438299          1.0000000\n",
  chars! "Pd    P\n",
  chars! "   3583.15866840945          1.0000000\n",
  chars! "Pd    P\n",
  chars! "   1829.86962476550          1.0000000\n",
  chars! "Pd    P\n",
  chars! "    934.489134729210         1.0000000\n",
  chars! "Pd    P\n",
  chars! "    477.230689612032         1.0000000\n",
  chars! "Pd    P\n",
  chars! "    243.715119463182         1.0000000\n",
  chars! "Pd    P\n",
  chars! "    124.461944187287         1.0000000\n",
  chars! "Pd    P\n",
  chars! "     63.5609952513411        1.0000000\n",
  chars! "Pd    P\n",
  chars! "     32.4597220758638        1.0000000\n",
  chars! "Pd    P\n",
  chars! "     16.5767315800501        1.0000000\n",
  chars! "Pd    P\n",
  chars! "      8.46550778330153       1.0000000\n",
  chars! "Pd    P\n",
  chars! "      4.32321786011102       1.0000000\n",
  chars! "Pd    P\n",
  chars! "      2.20780762884063       1.0000000\n",
  chars! "Pd    P\n",
  chars! "      1.12749685157938       1.0000000\n",
  chars! "Pd    P\n",
  chars! "      0.575797063890464            1.0000000\n",
  chars! "Pd    P\n",
  chars! "      0.294051604951678            1.0000000\n",
  chars! "Pd    P\n",
  chars! "      0.150168091845475            1.0000000\n",
  chars! "Pd    D\n",
  chars! "   7016.36109438300          1.0000000\n",
  chars! "Pd    D\n",
  chars! "   3583.15866840946          1.0000000\n",
  chars! "Pd    D\n",
  chars! "   1829.86962476550          1.0000000\n",
  chars! "Pd    D\n",
  chars! "    934.489134729211         1.0000000\n",
  chars! "Pd    D\n",
  chars! "    477.230689612032         1.0000000\n",
  chars! "Pd    D\n",
  chars! "    243.715119463182         1.0000000\n",
  chars! "Pd    D\n",
  chars! "    124.461944187287         1.0000000\n",
  chars! "Pd    D\n",
  chars! "     63.5609952513412        1.0000000\n",
  chars! "Pd    D\n",
  chars! "     32.4597220758638        1.0000000\n",
  chars! "Pd    D\n",
  chars! "     16.5767315800501        1.0000000\n",
  chars! "Pd    D\n",
  chars! "      8.46550778330153       1.0000000\n",
  chars! "Pd    D\n",
  chars! "      4.32321786011102       1.0000000\n",
  chars! "Pd    D\n",
  chars! "      2.20780762884063       1.0000000\n",
  chars! "Pd    D\n",
  chars! "      1.12749685157938       1.0000000\n",
  chars! "Pd    D\n",
  chars! "      0.575797063890465            1.0000000\n",
  chars! "Pd    D\n",
  chars! "      0.294051604951678            1.0000000\n",
  chars! "Pd    D\n",
  chars! "      0.150168091845475            1.0000000\n",
  chars! "Pd    D\n",
  chars! "      7.668876968794860E-002            1.0000000\n"]⟩

theorem ugbs_pd_ok : ugbs_pd.ok = true := by decide +kernel

/-- `Ag` in `data/ygbs`. -/
noncomputable def ugbs_ag : UBlock := ⟨47, chars! "Ag", [('S', 30, 31), ('P', 23, 21), ('D', 18, 17)], [
  chars! "#BASIS SET: (31s,21p,17d)\n",
  chars! "Ag    S\n",
  chars! " 11387194.5850786            1.0000000\n",
  chars! "Ag    S\n",
  chars! " 5815282.94190191            1.0000000\n",
  chars! "Ag    S\n",
  chars! " 2969784.65079438            1.0000000\n",
  chars! "Ag    S\n",
  chars! " 1516627.98873367            1.0000000\n",
  chars! "Ag    S\n",
  chars! " 774520.959152735            1.0000000\n",
  chars! "Ag    S\n",
  chars! " 395537.152566831            1.0000000\n",
  chars! "Ag    S\n",
  chars! " 201995.358823884            1.0000000\n",
  chars! "Ag    S\n",
  chars! " 103156.238855453            1.0000000\n",
  chars! "Ag    S\n",
  chars! "  52680.4659115021           1.0000000\n",
  chars! "Ag    S\n",
  chars! "  26903.1860742975           1.0000000\n",
  chars! "Ag    S\n",
  chars! "  13739.0854166734           1.0000000\n",
  chars! "Ag    S\n",
  chars! "   7016.36109438299          1.0000000\n",
  chars! "Ag    S\n",
  chars! "   3583.15866840945          1.0000000\n",
  chars! "Ag    S\n",
  chars! "   1829.86962476550          1.0000000\n",
  chars! "Ag    S\n",
  chars! "    934.489134729211         1.0000000\n",
  chars! "Ag    S\n",
  chars! "    477.230689612032         1.0000000\n",
  chars! "Ag    S\n",
  chars! "    243.715119463182         1.0000000\n",
  chars! "Ag    S\n",
  chars! "    124.461944187287         1.0000000\n",
  chars! "Ag    S\n",
  chars! "     63.5609952513411        1.0000000\n",
  chars! "Ag    S\n",
  chars! "     32.4597220758638        1.0000000\n",
  chars! "Ag    S\n",
  chars! "     16.5767315800501        1.0000000\n",
  chars! "Ag    S\n",
  chars! "      8.46550778330153       1.0000000\n",
  chars! "Ag    S\n",
  chars! "      4.32321786011102       1.0000000\n",
  chars! "Ag    S\n",
  chars! "      2.20780762884063       1.0000000\n",
  chars! "Ag    S\n",
  chars! "      1.12749685157938       1.0000000\n",
  chars! "Ag    S\n",
  chars! "      0.575797063890465            1.0000000\n",
  chars! "Ag    S\n",
  chars! "      0.294051604951678            1.0000000\n",
  chars! "Ag    S\n",
  chars! "      0.150168091845475            1.0000000\n",
  chars! "Ag    S\n",
  chars! "      7.668876968794858E-002            1.0000000\n",
  chars! "Ag    S\n",
  chars! "      3.916389509898707E-002            1.0000000\n",
  chars! "Ag    S\n",
  chars! "      2.000046011385546E-002            1.0000000\n",
  chars! "Ag    P\n",
  chars! " 103156.238855453            1.0000000\n",
  chars! "Ag    P\n",
  chars! "  52680.4659115021           1.0000000\n",
  chars! "Ag    P\n",
  chars! "  26903.1860742975           1.0000000\n",
  chars! "Ag    P\n",
  chars! "  13739.0854166734           1.0000000\n",
  chars! "Ag    P\n",
  chars! "   7016.36109438299          1.0000000\n",
  chars! "Ag    P\n",
  chars! "   3583.15866840945          1.0000000\n",
  chars! "Ag    P\n",
  chars! "   1829.86962476550          1.0000000\n",
  chars! "Ag    P\n",
  chars! "    934.489134729210         1.0000000\n",
  chars! "Ag    P\n",
  chars! "    477.230689612032         1.0000000\n",
  chars! "Ag    P\n",
  chars! "    243.715119463182         1.0000000\n",
  chars! "Ag    P\n",
  chars! "    124.461944187287         1.0000000\n",
  chars! "Ag    P\n",
  chars! "     63.5609952513411        1.0000000\n",
  chars! "Ag    P\n",
  chars! "     32.4597220758638        1.0000000\n",
  chars! "Ag    P\n",
  chars! "     16.5767315800501        1.0000000\n",
  chars! "Ag    P\n",
  chars! "      8.46550778330153       1.0000000\n",
  chars! "Ag    P\n",
  chars! "      4.32321786011102       1.0000000\n",
  chars! "Ag    P\n",
  chars! "      2.20780762884063       1.0000000\n",
  chars! "Ag    P\n",
  chars! "      1.12749685157938       1.0000000\n",
  chars! "Ag    P\n",
  chars! "      0.575797063890464            1.0000000\n",
  chars! "Ag    P\n",
  chars! "      0.294051604951678            1.0000000\n",
  chars! "Ag    P\n",
  chars! "      0.150168091845475            1.0000000\n",
  chars! "Ag    D\n",
  chars! "   3583.15866840946          1.0000000\n",
  chars! "Ag    D\n",
  chars! "   1829.86962476550          1.0000000\n",
  chars! "Ag    D\n",
  chars! "    934.489134729211         1.0000000\n",
  chars! "Ag    D\n",
  chars! "    477.230689612032         1.0000000\n",
  chars! "Ag    D\n",
  chars! "    243.715119463182         1.0000000\n",
  chars! "Ag    D\n",
  chars! "    124.461944187287         1.0000000\n",
  chars! "Ag    D\n",
  chars! "     63.5609952513412        1.0000000\n",
  chars! "Ag    D\n",
  chars! "     32.4597220758638        1.0000000\n",
  chars! "Ag    D\n",
  chars! "     16.5767315800501        1.0000000\n",
  chars! "Ag    D\n",
  chars! "      8.46550778330153       1.0000000\n",
  chars! "Ag    D\n",
  chars! "      4.32321786011102       1.0000000\n",
  chars! "Ag    D\n",
  chars! "      2.20780762884063       1.0000000\n",
  chars! "Ag    D\n",
  chars! "      1.12749685157938       1.0000000\n",
  chars! "Ag    D\n",
  chars! "      0.575797063890465            1.0000000\n",
  chars! "Ag    D\n",
  chars! "      0.294051604951678            1.0000000\n",
  chars! "Ag    D\n",
  chars! "      0.150168091845475            1.0000000\n",
  chars! "Ag    D\n",
  chars! "      7.668876968794860E-002            1.0000000\n"]⟩

theorem ugbs_ag_ok : ugbs_ag.ok = true := by decide +kernel

/-- `Cd` in `data/ygbs`. -/
noncomputable def ugbs_cd : UBlock := ⟨48, chars! "Cd", [('S', 31, 31), ('P', 23, 20), ('D', 18, 16)], [
  chars! "#BASIS SET: (31s,20p,16d)\n",
  chars! "Cd    S\n",
  chars! " 22297831.7330222            1.0000000\n",
  chars! "Cd    S\n",
  chars! " 11387194.5850786            1.0000000\n",
  chars! "Cd    S\n",
  chars! " 5815282.94190191            1.0000000\n",
  chars! "Cd    S\n",
  chars! " 2969784.65079438            1.0000000\n",
  chars! "Cd    S\n",
  chars! " 1516627.98873367            1.0000000\n",
  chars! "Cd    S\n",
  chars! " 774520.959152738            1.0000000\n",
  chars! "Cd    S\n",
  chars! " 395537.152566831            1.0000000\n",
  chars! "Cd    S\n",
  chars! " 201995.358823884            1.0000000\n",
  chars! "Cd    S\n",
  chars! " 103156.238855453            1.0000000\n",
  chars! "Cd    S\n",
  chars! "  52680.4659115021           1.0000000\n",
  chars! "Cd    S\n",
  chars! "  26903.1860742976           1.0000000\n",
  chars! "Cd    S\n",
  chars! "  13739.0854166734           1.0000000\n",
  chars! "Cd    S\n",
  chars! "   7016.36109438299          1.0000000\n",
  chars! "Cd    S\n",
  chars! "   3583.15866840946          1.0000000\n",
  chars! "Cd    S\n",
  chars! "   1829.86962476550          1.0000000\n",
  chars! "Cd    S\n",
  chars! "    934.489134729210         1.0000000\n",
  chars! "Cd    S\n",
  chars! "    477.230689612032         1.0000000\n",
  chars! "Cd    S\n",
  chars! "    243.715119463182         1.0000000\n",
  chars! "Cd    S\n",
  chars! "    124.461944187287         1.0000000\n",
  chars! "Cd    S\n",
  chars! "     63.5609952513411        1.0000000\n",
  chars! "Cd    S\n",
  chars! "     32.4597220758638        1.0000000\n",
  chars! "Cd    S\n",
  chars! "     16.5767315800501        1.0000000\n",
  chars! "Cd    S\n",
  chars! "      8.46550778330153       1.0000000\n",
  chars! "Cd    S\n",
  chars! "      4.32321786011102       1.0000000\n",
  chars! "Cd    S\n",
  chars! "      2.20780762884063       1.0000000\n",
  chars! "Cd    S\n",
  chars! "      1.12749685157938       1.0000000\n",
  chars! "Cd    S\n",
  chars! "      0.575797063890464            1.0000000\n",
  chars! "Cd    S\n",
  chars! "      0.294051604951678            1.0000000\n",
  chars! "Cd    S\n",
  chars! "      0.150168091845475            1.0000000\n",
  chars! "Cd    S\n",
  chars! "      7.668876968794858E-002            1.0000000\n",
  chars! "Cd    S\n",
  chars! "      3.916389509898707E-002            1.0000000\n",
  chars! "Cd    P\n",
  chars! " 103156.238855453            1.0000000\n",
  chars! "Cd    P\n",
  chars! "  52680.4659115021           1.0000000\n",
  chars! "Cd    P\n",
  chars! "  26903.1860742976           1.0000000\n",
  chars! "Cd    P\n",
  chars! "  13739.0854166734           1.0000000\n",
  chars! "Cd    P\n",
  chars! "   7016.36109438299          1.0000000\n",
  chars! "Cd    P\n",
  chars! "   3583.15866840946          1.0000000\n",
  chars! "Cd    P\n",
  chars! "   1829.86962476550          1.0000000\n",
  chars! "Cd    P\n",
  chars! "    934.489134729211         1.0000000\n",
  chars! "Cd    P\n",
  chars! "    477.230689612032         1.0000000\n",
  chars! "Cd    P\n",
  chars! "    243.715119463182         1.0000000\n",
  chars! "Cd    P\n",
  chars! "    124.461944187287         1.0000000\n",
  chars! "Cd    P\n",
  chars! "     63.5609952513411        1.0000000\n",
  chars! "Cd    P\n",
  chars! "     32.4597220758638        1.0000000\n",
  chars! "Cd    P\n",
  chars! "     16.5767315800501        1.0000000\n",
  chars! "Cd    P\n",
  chars! "      8.46550778330153       1.0000000\n",
  chars! "Cd    P\n",
  chars! "      4.32321786011102       1.0000000\n",
  chars! "Cd    P\n",
  chars! "      2.20780762884063       1.0000000\n",
  chars! "Cd    P\n",
  chars! "      1.12749685157938       1.0000000\n",
  chars! "Cd    P\n",
  chars! "      0.575797063890465            1.0000000\n",
  chars! "Cd    P\n",
  chars! "      0.294051604951678            1.0000000\n",
  chars! "Cd    D\n",
  chars! "   3583.15866840945          1.0000000\n",
  chars! "Cd    D\n",
  chars! "   1829.86962476550          1.0000000\n",
  chars! "Cd    D\n",
  chars! "    934.489134729210         1.0000000\n",
  chars! "Cd    D\n",
  chars! "    477.230689612032         1.0000000\n",
  chars! "Cd    D\n",
  chars! "    243.715119463182         1.0000000\n",
  chars! "Cd    D\n",
  chars! "    124.461944187287         1.0000000\n",
  chars! "Cd    D\n",
  chars! "     63.5609952513411        1.0000000\n",
  chars! "Cd    D\n",
  chars! "     32.4597220758638        1.0000000\n",
  chars! "Cd    D\n",
  chars! "     16.5767315800501        1.0000000\n",
  chars! "Cd    D\n",
  chars! "      8.46550778330153       1.0000000\n",
  chars! "Cd    D\n",
  chars! "      4.32321786011102       1.0000000\n",
  chars! "Cd    D\n",
  chars! "      2.20780762884063       1.0000000\n",
  chars! "Cd    D\n",
  chars! "      1.12749685157938       1.0000000\n",
  chars! "Cd    D\n",
  chars! "      0.575797063890464            1.0000000\n",
  chars! "Cd    D\n",
  chars! "      0.294051604951678            1.0000000\n",
  chars! "Cd    D\n",
  chars! "      0.150168091845475            1.0000000\n"]⟩

theorem ugbs_cd_ok : ugbs_cd.ok = true := by decide +kernel

/-- `In` in `data/ygbs`. -/
noncomputable def ugbs_in : UBlock := ⟨49, chars! "In", [('S', 30, 30), ('P', 22, 22), ('D', 18, 16)], [
  chars! "#BASIS SET: (30s,22p,16d)\n",
  chars! "In    S\n",
  chars! " 11387194.5850786            1.0000000\n",
  chars! "In    S\n",
  chars! " 5815282.94190191            1.0000000\n",
  chars! "In    S\n",
  chars! " 2969784.65079438            1.0000000\n",
  chars! "In    S\n",
  chars! " 1516627.98873367            1.0000000\n",
  chars! "In    S\n",
  chars! " 774520.959152738            1.0000000\n",
  chars! "In    S\n",
  chars! " 395537.152566831            1.0000000\n",
  chars! "In    S\n",
  chars! " 201995.358823884            1.0000000\n",
  chars! "In    S\n",
  chars! " 103156.238855453            1.0000000\n",
  chars! "In    S\n",
  chars! "  52680.4659115021           1.0000000\n",
  chars! "In    S\n",
  chars! "  26903.1860742976           1.0000000\n",
  chars! "In    S\n",
  chars! "  13739.0854166734           1.0000000\n",
  chars! "In    S\n",
  chars! "   7016.36109438299          1.0000000\n",
  chars! "In    S\n",
  chars! "   3583.15866840946          1.0000000\n",
  chars! "In    S\n",
  chars! "   1829.86962476550          1.0000000\n",
  chars! "In    S\n",
  chars! "    934.489134729210         1.0000000\n",
  chars! "In    S\n",
  chars! "    477.230689612032         1.0000000\n",
  chars! "In    S\n",
  chars! "    243.715119463182         1.0000000\n",
  chars! "In    S\n",
  chars! "    124.461944187287         1.0000000\n",
  chars! "In    S\n",
  chars! "     63.5609952513411        1.0000000\n",
  chars! "In    S\n",
  chars! "     32.4597220758638        1.0000000\n",
  chars! "In    S\n",
  chars! "     16.5767315800501        1.0000000\n",
  chars! "In    S\n",
  chars! "      8.46550778330153       1.0000000\n",
  chars! "In    S\n",
  chars! "      4.32321786011102       1.0000000\n",
  chars! "In    S\n",
  chars! "      2.20780762884063       1.0000000\n",
  chars! "In    S\n",
  chars! "      1.12749685157938       1.0000000\n",
  chars! "In    S\n",
  chars! "      0.575797063890464            1.0000000\n",
  chars! "In    S\n",
  chars! "      0.294051604951678            1.0000000\n",
  chars! "In    S\n",
  chars! "      0.150168091845475            1.0000000\n",
  chars! "In    S\n",
  chars! "      7.668876968794858E-002            1.0000000\n",
  chars! "In    S\n",
  chars! "      3.916389509898707E-002            1.0000000\n",
  chars! "In    P\n",
  chars! "  52680.4659115021           1.0000000\n",
  chars! "In    P\n",
  chars! "  26903.1860742976           1.0000000\n",
  chars! "In    P\n",
  chars! "  13739.0854166734           1.0000000\n",
  chars! "In    P\n",
  chars! "   7016.36109438299          1.0000000\n",
  chars! "In    P\n",
  chars! "   3583.15866840946          1.0000000\n",
  chars! "In    P\n",
  chars! "   1829.86962476550          1.0000000\n",
  chars! "In    P\n",
  chars! "    934.489134729210         1.0000000\n",
  chars! "In    P\n",
  chars! "    477.230689612032         1.0000000\n",
  chars! "In    P\n",
  chars! "    243.715119463182         1.0000000\n",
  chars! "In    P\n",
  chars! "    124.461944187287         1.0000000\n",
  chars! "In    P\n",
  chars! "     63.5609952513411        1.0000000\n",
  chars! "In    P\n",
  chars! "     32.4597220758638        1.0000000\n",
  chars! "In    P\n",
  chars! "     16.5767315800501        1.0000000\n",
  chars! "In    P\n",
  chars! "      8.46550778330153       1.0000000\n",
  chars! "In    P\n",
  chars! "      4.32321786011102       1.0000000\n",
  chars! "In    P\n",
  chars! "      2.20780762884063       1.0000000\n",
  chars! "In    P\n",
  chars! "      1.12749685157938       1.0000000\n",
  chars! "In    P\n",
  chars! "      0.575797063890464            1.0000000\n",
  chars! "In    P\n",
  chars! "      0.294051604951678            1.0000000\n",
  chars! "In    P\n",
  chars! "      0.150168091845475            1.0000000\n",
  chars! "In    P\n",
  chars! "      7.668876968794858E-002            1.0000000\n",
  chars! "In    P\n",
  chars! "      3.916389509898707E-002            1.0000000\n",
  chars! "In    D\n",
  chars! "   3583.15866840945          1.0000000\n",
  chars! "In    D\n",
  chars! "   1829.86962476550          1.0000000\n",
  chars! "In    D\n",
  chars! "    934.489134729210         1.0000000\n",
  chars! "In    D\n",
  chars! "    477.230689612032         1.0000000\n",
  chars! "In    D\n",
  chars! "    243.715119463182         1.0000000\n",
  chars! "In    D\n",
  chars! "    124.461944187287         1.0000000\n",
  chars! "In    D\n",
  chars! "     63.5609952513411        1.0000000\n",
  chars! "In    D\n",
  chars! "     32.4597220758638        1.0000000\n",
  chars! "In    D\n",
  chars! "     16.5767315800501        1.0000000\n",
  chars! "In    D\n",
  chars! "      8.46550778330153       1.0000000\n",
  chars! "In    D\n",
  chars! "      4.32321786011102       1.0000000\n",
  chars! "In    D\n",
  chars! "      2.20780762884063       1.0000000\n",
  chars! "In    D\n",
  chars! "      1.12749685157938       1.0000000\n",
  chars! "In    D\n",
  chars! "      0.575797063890464            1.0000000\n",
  chars! "In    D\n",
  chars! "      0.294051604951678            1.0000000\n",
  chars! "In    D\n",
  chars! "      0.150168091845475            1.0000000\n"]⟩

theorem ugbs_in_ok : ugbs_in.ok = true := by decide +kernel

/-- `Sn` in `data/ygbs`. -/
noncomputable def ugbs_sn : UBlock := ⟨50, chars! "Sn", [('S', 30, 30), ('P', 22, 22), ('D', 18, 16)], [
  chars! "#BASIS SET: (30s,22p,16d)\n",
  chars! "Sn    S\n",
  chars! " 11387194.5850786            1.0000000\n",
  chars! "Sn    S\n",
  chars! " 5815282.94190191            1.0000000\n",
  chars! "Sn    S\n",
  chars! " 2969784.65079438            1.0000000\n",
  chars! "Sn    S\n",
  chars! " 1516627.98873367            1.0000000\n",
  chars! "Sn    S\n",
  chars! " 774520.959152738            1.0000000\n",
  chars! "Sn    S\n",
  chars! " 395537.152566831            1.0000000\n",
  chars! "Sn    S\n",
  chars! " 201995.358823884            1.0000000\n",
  chars! "Sn    S\n",
  chars! " 103156.238855453            1.0000000\n",
  chars! "Sn    S\n",
  chars! "  52680.4659115021           1.0000000\n",
  chars! "Sn    S\n",
  chars! "  26903.1860742976           1.0000000\n",
  chars! "Sn    S\n",
  chars! "  13739.0854166734           1.0000000\n",
  chars! "Sn    S\n",
  chars! "   7016.36109438299          1.0000000\n",
  chars! "Sn    S\n",
  chars! "   3583.15866840946          1.0000000\n",
  chars! "Sn    S\n",
  chars! "   1829.86962476550          1.0000000\n",
  chars! "Sn    S\n",
  chars! "    934.489134729210         1.0000000\n",
  chars! "Sn    S\n",
  chars! "    477.230689612032         1.0000000\n",
  chars! "Sn    S\n",
  chars! "    243.715119463182         1.0000000\n",
  chars! "Sn    S\n",
  chars! "    124.461944187287         1.0000000\n",
  chars! "Sn    S\n",
  chars! "     63.5609952513411        1.0000000\n",
  chars! "Sn    S\n",
  chars! "     32.4597220758638        1.0000000\n",
  chars! "Sn    S\n",
  chars! "     16.5767315800501        1.0000000\n",
  chars! "Sn    S\n",
  chars! "      8.46550778330153       1.0000000\n",
  chars! "Sn    S\n",
  chars! "      4.32321786011102       1.0000000\n",
  chars! "Sn    S\n",
  chars! "      2.20780762884063       1.0000000\n",
  chars! "Sn    S\n",
  chars! "      1.12749685157938       1.0000000\n",
  chars! "Sn    S\n",
  chars! "      0.575797063890464            1.0000000\n",
  chars! "Sn    S\n",
  chars! "      0.294051604951678            1.0000000\n",
  chars! "Sn    S\n",
  chars! "      0.150168091845475            1.0000000\n",
  chars! "Sn    S\n",
  chars! "      7.668876968794858E-002            1.0000000\n",
  chars! "Sn    S\n",
  chars! "      3.916389509898707E-002            1.0000000\n",
  chars! "Sn    P\n",
  chars! "  52680.4659115021           1.0000000\n",
  chars! "Sn    P\n",
  chars! "  26903.1860742976           1.0000000\n",
  chars! "Sn    P\n",
  chars! "  13739.0854166734           1.0000000\n",
  chars! "Sn    P\n",
  chars! "   7016.36109438299          1.0000000\n",
  chars! "Sn    P\n",
  chars! "   3583.15866840946          1.0000000\n",
  chars! "Sn    P\n",
  chars! "   1829.86962476550          1.0000000\n",
  chars! "Sn    P\n",
  chars! "    934.489134729210         1.0000000\n",
  chars! "Sn    P\n",
  chars! "    477.230689612032         1.0000000\n",
  chars! "Sn    P\n",
  chars! "    243.715119463182         1.0000000\n",
  chars! "Sn    P\n",
  chars! "    124.461944187287         1.0000000\n",
  chars! "Sn    P\n",
  chars! "     63.5609952513411        1.0000000\n",
  chars! "Sn    P\n",
  chars! "     32.4597220758638        1.0000000\n",
  chars! "Sn    P\n",
  chars! "     16.5767315800501        1.0000000\n",
  chars! "Sn    P\n",
  chars! "      8.46550778330153       1.0000000\n",
  chars! "Sn    P\n",
  chars! "      4.32321786011102       1.0000000\n",
  chars! "Sn    P\n",
  chars! "      2.20780762884063       1.0000000\n",
  chars! "Sn    P\n",
  chars! "      1.12749685157938       1.0000000\n",
  chars! "Sn    P\n",
  chars! "      0.575797063890464            1.0000000\n",
  chars! "Sn    P\n",
  chars! "      0.294051604951678            1.0000000\n",
  chars! "Sn    P\n",
  chars! "      0.150168091845475            1.0000000\n",
  chars! "Sn    P\n",
  chars! "      7.668876968794858E-002            1.0000000\n",
  chars! "Sn    P\n",
  chars! "      3.916389509898707E-002            1.0000000\n",
  chars! "Sn    D\n",
  chars! "   3583.15866840945          1.0000000\n",
  chars! "Sn    D\n",
  chars! "   1829.86962476550          1.0000000\n",
  chars! "Sn    D\n",
  chars! "    934.489134729210         1.0000000\n",
  chars! "Sn    D\n",
  chars! "    477.230689612032         1.0000000\n",
  chars! "Sn    D\n",
  chars! "    243.715119463182         1.0000000\n",
  chars! "Sn    D\n",
  chars! "    124.461944187287         1.0000000\n",
  chars! "Sn    D\n",
  chars! "     63.5609952513411        1.0000000\n",
  chars! "Sn    D\n",
  chars! "     32.4597220758638        1.0000000\n",
  chars! "Sn    D\n",
  chars! "     16.5767315800501        1.0000000\n",
  chars! "Sn    D\n",
  chars! "      8.46550778330153       1.0000000\n",
  chars! "Sn    D\n",
  chars! "      4.32321786011102       1.0000000\n",
  chars! "Sn    D\n",
  chars! "      2.20780762884063       1.0000000\n",
  chars! "Sn    D\n",
  chars! "      1.12749685157938       1.0000000\n",
  chars! "Sn    D\n",
  chars! "      0.575797063890464            1.0000000\n",
  chars! "Sn    D\n",
  chars! "      0.294051604951678            1.0000000\n",
  chars! "Sn    D\n",
  chars! "      0.150168091845475            1.0000000\n"]⟩

theorem ugbs_sn_ok : ugbs_sn.ok = true := by decide +kernel

/-- `Sb` in `data/ygbs`. -/
noncomputable def ugbs_sb : UBlock := ⟨51, chars! "Sb", [('S', 31, 30), ('P', 22, 22), ('D', 18, 16)], [
  chars! "#BASIS SET: (30s,22p,16d)\n",
  chars! "Sb    S\n",
  chars! " 22297831.7330223            1.0000000\n",
  chars! "Sb    S\n",
  chars! " 11387194.5850786            1.0000000\n",
  chars! "Sb    S\n",
  chars! " 5815282.94190191            1.0000000\n",
  chars! "Sb    S\n",
  chars! " 2969784.65079438            1.0000000\n",
  chars! "Sb    S\n",
  chars! " 1516627.98873367            1.0000000\n",
  chars! "Sb    S\n",
  chars! " 774520.959152738            1.0000000\n",
  chars! "Sb    S\n",
  chars! " 395537.152566831            1.0000000\n",
  chars! "Sb    S\n",
  chars! " 201995.358823884            1.0000000\n",
  chars! "Sb    S\n",
  chars! " 103156.238855453            1.0000000\n",
  chars! "Sb    S\n",
  chars! "  52680.4659115022           1.0000000\n",
  chars! "Sb    S\n",
  chars! "  26903.1860742976           1.0000000\n",
  chars! "Sb    S\n",
  chars! "  13739.0854166734           1.0000000\n",
  chars! "Sb    S\n",
  chars! "   7016.36109438300          1.0000000\n",
  chars! "Sb    S\n",
  chars! "   3583.15866840946          1.0000000\n",
  chars! "Sb    S\n",
  chars! "   1829.86962476550          1.0000000\n",
  chars! "Sb    S\n",
  chars! "    934.489134729211         1.0000000\n",
  chars! "Sb    S\n",
  chars! "    477.230689612032         1.0000000\n",
  chars! "Sb    S\n",
  chars! "    243.715119463182         1.0000000\n",
  chars! "Sb    S\n",
  chars! "    124.461944187287         1.0000000\n",
  chars! "Sb    S\n",
  chars! "     63.5609952513412        1.0000000\n",
  chars! "Sb    S\n",
  chars! "     32.4597220758638        1.0000000\n",
  chars! "Sb    S\n",
  chars! "     16.5767315800501        1.0000000\n",
  chars! "Sb    S\n",
  chars! "      8.46550778330153       1.0000000\n",
  chars! "Sb    S\n",
  chars! "      4.32321786011102       1.0000000\n",
  chars! "Sb    S\n",
  chars! "      2.20780762884063       1.0000000\n",
  chars! "Sb    S\n",
  chars! "      1.12749685157938       1.0000000\n",
  chars! "Sb    S\n",
  chars! "      0.575797063890465            1.0000000\n",
  chars! "Sb    S\n",
  chars! "      0.294051604951678            1.0000000\n",
  chars! "Sb    S\n",
  chars! "      0.150168091845475            1.0000000\n",
  chars! "Sb    S\n",
  chars! "      7.668876968794860E-002            1.0000000\n",
  chars! "Sb    P\n",
  chars! "  52680.4659115021           1.0000000\n",
  chars! "Sb    P\n",
  chars! "  26903.1860742976           1.0000000\n",
  chars! "Sb    P\n",
  chars! "  13739.0854166734           1.0000000\n",
  chars! "Sb    P\n",
  chars! "   7016.36109438299          1.0000000\n",
  chars! "Sb    P\n",
  chars! "   3583.15866840946          1.0000000\n",
  chars! "Sb    P\n",
  chars! "   1829.86962476550          1.0000000\n",
  chars! "Sb    P\n",
  chars! "    934.489134729210         1.0000000\n",
  chars! "Sb    P\n",
  chars! "    477.230689612032         1.0000000\n",
  chars! "Sb    P\n",
  chars! "    243.715119463182         1.0000000\n",
  chars! "Sb    P\n",
  chars! "    124.461944187287         1.0000000\n",
  chars! "Sb    P\n",
  chars! "     63.5609952513411        1.0000000\n",
  chars! "Sb    P\n",
  chars! "     32.4597220758638        1.0000000\n",
  chars! "Sb    P\n",
  chars! "     16.5767315800501        1.0000000\n",
  chars! "Sb    P\n",
  chars! "      8.46550778330153       1.0000000\n",
  chars! "Sb    P\n",
  chars! "      4.32321786011102       1.0000000\n",
  chars! "Sb    P\n",
  chars! "      2.20780762884063       1.0000000\n",
  chars! "Sb    P\n",
  chars! "      1.12749685157938       1.0000000\n",
  chars! "Sb    P\n",
  chars! "      0.575797063890464            1.0000000\n",
  chars! "Sb    P\n",
  chars! "      0.294051604951678            1.0000000\n",
  chars! "Sb    P\n",
  chars! "      0.150168091845475            1.0000000\n",
  chars! "Sb    P\n",
  chars! "      7.668876968794858E-002            1.0000000\n",
  chars! "Sb    P\n",
  chars! "      3.916389509898707E-002            1.0000000\n",
  chars! "Sb    D\n",
  chars! "   3583.15866840945          1.0000000\n",
  chars! "Sb    D\n",
  chars! "   1829.86962476550          1.0000000\n",
  chars! "Sb    D\n",
  chars! "    934.489134729210         1.0000000\n",
  chars! "Sb    D\n",
  chars! "    477.230689612032         1.0000000\n",
  chars! "Sb    D\n",
  chars! "    243.715119463182         1.0000000\n",
  chars! "Sb    D\n",
  chars! "    124.461944187287         1.0000000\n",
  chars! "Sb    D\n",
  chars! "     63.5609952513411        1.0000000\n",
  chars! "Sb    D\n",
  chars! "     32.4597220758638        1.0000000\n",
  chars! "Sb    D\n",
  chars! "     16.5767315800501        1.0000000\n",
  chars! "Sb    D\n",
  chars! "      8.46550778330153       1.0000000\n",
  chars! "Sb    D\n",
  chars! "      4.32321786011102       1.0000000\n",
  chars! "Sb    D\n",
  chars! "      2.20780762884063       1.0000000\n",
  chars! "Sb    D\n",
  chars! "      1.12749685157938       1.0000000\n",
  chars! "Sb    D\n",
  chars! "      0.575797063890464            1.0000000\n",
  chars! "Sb    D\n",
  chars! "      0.294051604951678            1.0000000\n",
  chars! "Sb    D\n",
  chars! "      0.150168091845475            1.0000000\n"]⟩

theorem ugbs_sb_ok : ugbs_sb.ok = true := by decide +kernel

/-- `Te` in `data/ygbs`. -/
noncomputable def ugbs_te : UBlock := ⟨52, chars! "Te", [('S', 31, 30), ('P', 23, 23), ('D', 18, 16)], [
  chars! "#BASIS SET: (30s,23p,16d)\n",
  chars! "Te    S\n",
  chars! " 22297831.7330223            1.0000000\n",
  chars! "Te    S\n",
  chars! " 11387194.5850786            1.0000000\n",
  chars! "Te    S\n",
  chars! " 5815282.94190191            1.0000000\n",
  chars! "Te    S\n",
  chars! " 2969784.65079438            1.0000000\n",
  chars! "Te    S\n",
  chars! " 1516627.98873367            1.0000000\n",
  chars! "Te    S\n",
  chars! " 774520.959152738            1.0000000\n",
  chars! "Te    S\n",
  chars! " 395537.152566831            1.0000000\n",
  chars! "Te    S\n",
  chars! " 201995.358823884            1.0000000\n",
  chars! "Te    S\n",
  chars! " 103156.238855453            1.0000000\n",
  chars! "Te    S\n",
  chars! "  52680.4659115022           1.0000000\n",
  chars! "Te    S\n",
  chars! "  26903.1860742976           1.0000000\n",
  chars! "Te    S\n",
  chars! "  13739.0854166734           1.0000000\n",
  chars! "Te    S\n",
  chars! "   7016.36109438300          1.0000000\n",
  chars! "Te    S\n",
  chars! "   3583.15866840946          1.0000000\n",
  chars! "Te    S\n",
  chars! "   1829.86962476550          1.0000000\n",
  chars! "Te    S\n",
  chars! "    934.489134729211         1.0000000\n",
  chars! "Te    S\n",
  chars! "    477.230689612032         1.0000000\n",
  chars! "Te    S\n",
  chars! "    243.715119463182         1.0000000\n",
  chars! "Te    S\n",
  chars! "    124.461944187287         1.0000000\n",
  chars! "Te    S\n",
  chars! "     63.5609952513412        1.0000000\n",
  chars! "Te    S\n",
  chars! "     32.4597220758638        1.0000000\n",
  chars! "Te    S\n",
  chars! "     16.5767315800501        1.0000000\n",
  chars! "Te    S\n",
  chars! "      8.46550778330153       1.0000000\n",
  chars! "Te    S\n",
  chars! "      4.32321786011102       1.0000000\n",
  chars! "Te    S\n",
  chars! "      2.20780762884063       1.0000000\n",
  chars! "Te    S\n",
  chars! "      1.12749685157938       1.0000000\n",
  chars! "Te    S\n",
  chars! "      0.575797063890465            1.0000000\n",
  chars! "Te    S\n",
  chars! "      0.294051604951678            1.0000000\n",
  chars! "Te    S\n",
  chars! "      0.150168091845475            1.0000000\n",
  chars! "Te    S\n",
  chars! "      7.668876968794860E-002            1.0000000\n",
  chars! "Te    P\n",
  chars! " 103156.238855453            1.0000000\n",
  chars! "Te    P\n",
  chars! "  52680.4659115021           1.0000000\n",
  chars! "Te    P\n",
  chars! "  26903.1860742976           1.0000000\n",
  chars! "Te    P\n",
  chars! "  13739.0854166734           1.0000000\n",
  chars! "Te    P\n",
  chars! "   7016.36109438299          1.0000000\n",
  chars! "Te    P\n",
  chars! "   3583.15866840946          1.0000000\n",
  chars! "Te    P\n",
  chars! "   1829.86962476550          1.0000000\n",
  chars! "Te    P\n",
  chars! "    934.489134729210         1.0000000\n",
  chars! "Te    P\n",
  chars! "    477.230689612032         1.0000000\n",
  chars! "Te    P\n",
  chars! "    243.715119463182         1.0000000\n",
  chars! "Te    P\n",
  chars! "    124.461944187287         1.0000000\n",
  chars! "Te    P\n",
  chars! "     63.5609952513411        1.0000000\n",
  chars! "Te    P\n",
  chars! "     32.4597220758638        1.0000000\n",
  chars! "Te    P\n",
  chars! "     16.5767315800501        1.0000000\n",
  chars! "Te    P\n",
  chars! "      8.46550778330153       1.0000000\n",
  chars! "Te    P\n",
  chars! "      4.32321786011102       1.0000000\n",
  chars! "Te    P\n",
  chars! "      2.20780762884063       1.0000000\n",
  chars! "Te    P\n",
  chars! "      1.12749685157938       1.0000000\n",
  chars! "Te    P\n",
  chars! "      0.575797063890464            1.0000000\n",
  chars! "Te    P\n",
  chars! "      0.294051604951678            1.0000000\n",
  chars! "Te    P\n",
  chars! "      0.150168091845475            1.0000000\n",
  chars! "Te    P\n",
  chars! "      7.668876968794858E-002            1.0000000\n",
  chars! "Te    P\n",
  chars! "      3.916389509898707E-002            1.0000000\n",
  chars! "Te    D\n",
  chars! "   3583.15866840945          1.0000000\n",
  chars! "Te    D\n",
  chars! "   1829.86962476550          1.0000000\n",
  chars! "Te    D\n",
  chars! "    934.489134729210         1.0000000\n",
  chars! "Te    D\n",
  chars! "    477.230689612032         1.0000000\n",
  chars! "Te    D\n",
  chars! "    243.715119463182         1.0000000\n",
  chars! "Te    D\n",
  chars! "    124.461944187287         1.0000000\n",
  chars! "Te    D\n",
  chars! "     63.5609952513411        1.0000000\n",
  chars! "Te    D\n",
  chars! "     32.4597220758638        1.0000000\n",
  chars! "Te    D\n",
  chars! "     16.5767315800501        1.0000000\n",
  chars! "Te    D\n",
  chars! "      8.46550778330153       1.0000000\n",
  chars! "Te    D\n",
  chars! "      4.32321786011102       1.0000000\n",
  chars! "Te    D\n",
  chars! "      2.20780762884063       1.0000000\n",
  chars! "Te    D\n",
  chars! "      1.12749685157938       1.0000000\n",
  chars! "Te    D\n",
  chars! "      0.575797063890464            1.0000000\n",
  chars! "Te    D\n",
  chars! "      0.294051604951678            1.0000000\n",
  chars! "Te    D\n",
  chars! "      0.150168091845475            1.0000000\n"]⟩

theorem ugbs_te_ok : ugbs_te.ok = true := by decide +kernel

/-- Part 3 of the UGBS file. -/
noncomputable def ugbs3 : List UBlock := [
  ugbs_y, ugbs_zr, ugbs_nb, ugbs_mo, ugbs_tc, ugbs_ru, ugbs_rh, ugbs_pd, ugbs_ag, ugbs_cd, ugbs_in, ugbs_sn, ugbs_sb, ugbs_te]

theorem ugbs3_ok : ∀ b ∈ ugbs3, b.ok = true := by
  intro b hb
  unfold ugbs3 at hb
  simp only [List.mem_cons, List.not_mem_nil, or_false] at hb
  rcases hb with rfl | rfl | rfl | rfl | rfl | rfl | rfl | rfl | rfl | rfl | rfl | rfl | rfl | rfl
  · exact ugbs_y_ok
  · exact ugbs_zr_ok
  · exact ugbs_nb_ok
  · exact ugbs_mo_ok
  · exact ugbs_tc_ok
  · exact ugbs_ru_ok
  · exact ugbs_rh_ok
  · exact ugbs_pd_ok
  · exact ugbs_ag_ok
  · exact ugbs_cd_ok
  · exact ugbs_in_ok
  · exact ugbs_sn_ok
  · exact ugbs_sb_ok
  · exact ugbs_te_ok

end BFit.Data

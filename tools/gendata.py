"""Copy the texts in /repo/bfit/data/data.tar, ygbs, kl_fpi_results.json and kl_slsqp_results.json and the arrays in
kl_fpi_results.npz and kl_slsqp_results.npz into Lean modules under lean/Verif/Data.

usage: gendata.py [--check]      (--check only compares the modules on disk with the archive)
"""
import math
import os
import re
import struct
import sys
import tarfile
import zipfile

REPO = "/repo/bfit/data/data.tar"
UGBS = "/repo/bfit/data/ygbs"
FITS = "/repo/bfit/data/kl_%s_results.json"
NPZ = "/repo/bfit/data/kl_%s_results.npz"
OUT = os.path.join(os.path.dirname(os.path.abspath(__file__)), "..", "lean", "Verif", "Data")
SIZE = 48000
SYM = (
    "h he li be b c n o f ne na mg al si p s cl ar k ca sc ti v cr mn fe co ni cu zn ga ge as se br kr rb sr y "
    "zr nb mo tc ru rh pd ag cd in sn sb te i xe cs ba la ce pr nd pm sm eu gd tb dy ho er tm yb lu hf ta w re "
    "os ir pt au hg tl pb bi po at rn fr ra ac th pa u np pu am cm bk cf es fm md no lr"
).split()
# ag.an is not a text (an archive inside the archive); cs.cat is not in the format of the others
SKIP = {("anion", "ag"), ("cation", "cs")}


def lines(data):
    text = data.decode("utf8").replace("\r\n", "\n").replace("\r", "\n")
    parts = text.split("\n")
    return [p + "\n" for p in parts[:-1]] + ([parts[-1]] if parts[-1] else [])


def lit(s):
    return '"' + s.replace("\\", "\\\\").replace('"', '\\"').replace("\n", "\\n").replace("\t", "\\t") + '"'


def read():
    out = []
    with tarfile.open(REPO) as tar:
        members = {m.name.lstrip("./"): m for m in tar.getmembers()}
        for d, ext in [("neutral", "slater"), ("anion", "an"), ("cation", "cat")]:
            for i, e in enumerate(SYM):
                m = next((members[k] for k in members if k.endswith(f"{d}/{e}.{ext}")), None)
                if m is not None and m.isfile():
                    out.append((d, e, i + 1, tar.extractfile(m).read()))
    return out


def entry(d, e, z, data):
    body = ",\n  ".join("chars! " + lit(line) for line in lines(data))
    return (
        f"/-- `data/{d}/{e}`. -/\nnoncomputable def {d}_{e} : DataFile := ⟨{z}, .{d}, [\n  {body}]⟩\n"
    )


def modules():
    groups, size = [[]], 0
    for d, e, z, data in read():
        if (d, e) in SKIP:
            continue
        if groups[-1] and size + len(data) > SIZE:
            groups.append([])
            size = 0
        groups[-1].append((d, e, z, data))
        size += len(data)
    mods = {}
    for k, g in enumerate(groups, 1):
        text = "import Verif.Lemmas.DataNum\n\n"
        text += "/-! Copy of files in /repo/bfit/data/data.tar, generated by tools/gendata.py. -/\n\n"
        text += "namespace BFit.Data\n\n"
        for d, e, z, data in g:
            text += entry(d, e, z, data)
            text += f"\ntheorem {d}_{e}_ok : {d}_{e}.ok = true := by decide +kernel\n\n"
        names = [f"{d}_{e}" for d, e, _, _ in g]
        text += f"/-- Part {k} of the files. -/\nnoncomputable def part{k} : List DataFile := [\n  {', '.join(names)}]\n\n"
        text += f"theorem part{k}_ok : ∀ d ∈ part{k}, d.ok = true := by\n  intro d hd\n  unfold part{k} at hd\n"
        text += "  simp only [List.mem_cons, List.not_mem_nil, or_false] at hd\n"
        if len(names) > 1:
            text += "  rcases hd with " + " | ".join(["rfl"] * len(names)) + "\n"
            text += "".join(f"  · exact {n}_ok\n" for n in names)
        else:
            text += f"  subst hd\n  exact {names[0]}_ok\n"
        text += "\nend BFit.Data\n"
        mods[f"Part{k}.lean"] = text
    n = len(groups)
    text = "".join(f"import Verif.Data.Part{k}\n" for k in range(1, n + 1))
    text += "\n/-! Copy of files in /repo/bfit/data/data.tar, generated by tools/gendata.py. -/\n\n"
    text += "namespace BFit.Data\n\n"
    cs = next(x for x in read() if x[:2] == ("cation", "cs"))
    text += entry(*cs)
    text += "\n/-- All files except the anion of silver (no text) and the cation of caesium (another format). -/\n"
    text += "noncomputable def bundled : List DataFile :=\n  "
    text += " ++ ".join(f"part{k}" for k in range(1, n + 1)) + "\n"
    text += "\ntheorem bundled_ok : ∀ d ∈ bundled, d.ok = true := by\n  intro d hd\n  unfold bundled at hd\n"
    text += "  simp only [List.mem_append, or_assoc] at hd\n  rcases hd with " + " | ".join(["h"] * n) + "\n"
    text += "".join(f"  · exact part{k}_ok d h\n" for k in range(1, n + 1))
    text += "\nend BFit.Data\n"
    mods["All.lean"] = text
    mods.update(ugbs())
    mods.update(fits())
    mods.update(npz())
    return mods


def block(b):
    """Lean definition for the part of the UGBS file of an element."""
    el = b[1].split()[0]
    shells = []
    for h, v in zip(b[1::2], b[2::2]):
        k = round((math.log(float(v.split()[0])) - 0.12) / 0.672) + 6
        sh = h.split()[1]
        if not shells or shells[-1][0] != sh:
            shells.append([sh, k, 0])
        shells[-1][2] += 1
    z = SYM.index(el.lower()) + 1
    table = ", ".join(f"('{c}', {k}, {n})" for c, k, n in shells)
    body = ",\n  ".join("chars! " + lit(line) for line in b)
    name = "ugbs_" + el.lower()
    text = f"/-- `{el}` in `data/ygbs`. -/\nnoncomputable def {name} : UBlock := ⟨{z}, chars! \"{el}\", [{table}], [\n  {body}]⟩\n"
    return name, text + f"\ntheorem {name}_ok : {name}.ok = true := by decide +kernel\n\n"


def ugbs():
    with open(UGBS, "rb") as f:
        text = lines(f.read())
    starts = [i for i, x in enumerate(text) if x.startswith("#BASIS")]
    end = next(i for i, x in enumerate(text) if x.startswith("END"))
    blocks = [text[i:j] for i, j in zip(starts, starts[1:] + [end])]
    groups, size = [[]], 0
    for b in blocks:
        n = sum(map(len, b))
        if groups[-1] and size + n > SIZE:
            groups.append([])
            size = 0
        groups[-1].append(b)
        size += n
    head = "/-! Copy of /repo/bfit/data/ygbs, generated by tools/gendata.py. -/\n\nnamespace BFit.Data\n\n"
    mods = {}
    for k, g in enumerate(groups, 1):
        out = "import Verif.Lemmas.UgbsScan\n\n" + head
        names = []
        for b in g:
            n, t = block(b)
            names.append(n)
            out += t
        out += f"/-- Part {k} of the UGBS file. -/\nnoncomputable def ugbs{k} : List UBlock := [\n  {', '.join(names)}]\n\n"
        out += f"theorem ugbs{k}_ok : ∀ b ∈ ugbs{k}, b.ok = true := by\n  intro b hb\n  unfold ugbs{k} at hb\n"
        out += "  simp only [List.mem_cons, List.not_mem_nil, or_false] at hb\n"
        out += "  rcases hb with " + " | ".join(["rfl"] * len(names)) + "\n"
        out += "".join(f"  · exact {n}_ok\n" for n in names)
        out += "\nend BFit.Data\n"
        mods[f"Ugbs{k}.lean"] = out
    n = len(groups)
    out = "".join(f"import Verif.Data.Ugbs{k}\n" for k in range(1, n + 1)) + "\n" + head
    out += "/-- The lines before the first element. -/\nnoncomputable def ugbsHead : List Str := [\n  "
    out += ",\n  ".join("chars! " + lit(x) for x in text[: starts[0]]) + "]\n\n"
    out += "/-- The lines after the last element. -/\nnoncomputable def ugbsEnd : List Str := [\n  "
    out += ",\n  ".join("chars! " + lit(x) for x in text[end:]) + "]\n\n"
    out += "/-- The elements in the file. -/\nnoncomputable def ugbsBlocks : List UBlock := "
    out += " ++ ".join(f"ugbs{k}" for k in range(1, n + 1)) + "\n\n"
    out += "/-- The lines of `data/ygbs`. -/\nnoncomputable def ugbsLines : List Str :=\n"
    out += "  ugbsHead ++ (ugbsBlocks.flatMap UBlock.lines ++ ugbsEnd)\n"
    out += "\ntheorem ugbsBlocks_ok : ∀ b ∈ ugbsBlocks, b.ok = true := by\n  intro b hb\n  unfold ugbsBlocks at hb\n"
    out += "  simp only [List.mem_append, or_assoc] at hb\n  rcases hb with " + " | ".join(["h"] * n) + "\n"
    out += "".join(f"  · exact ugbs{k}_ok b h\n" for k in range(1, n + 1))
    out += "\nend BFit.Data\n"
    mods["UgbsAll.lean"] = out
    return mods


ENTRY = re.compile(r'"([a-z]+)": \{"num_s": (\d+), "num_p": (\d+), "coeffs": \[([^]]*)\], "exps": \[([^]]*)\]\}')


def fit_entries(kind):
    """Texts of the numbers for every element; joined as in `fitsText` they give the file."""
    with open(FITS % kind, encoding="utf8") as f:
        text = f.read()
    out = [(s, a, b, c.split(", "), e.split(", ")) for s, a, b, c, e in ENTRY.findall(text)]
    join = ", ".join(
        '"%s": {"num_s": %s, "num_p": %s, "coeffs": [%s], "exps": [%s]}' % (s, a, b, ", ".join(c), ", ".join(e))
        for s, a, b, c, e in out
    )
    assert "{" + join + "}" == text
    return out


def fits():
    head = "/-! Copy of /repo/bfit/data/kl_fpi_results.json and kl_slsqp_results.json, generated by tools/gendata.py. -/"
    head += "\n\nnamespace BFit.Data\n\n"
    fpi, slsqp = fit_entries("fpi"), fit_entries("slsqp")
    assert [x[0] for x in fpi] == [x[0] for x in slsqp] == SYM[: len(fpi)]
    groups = [list(zip(fpi, slsqp))[i : i + 14] for i in range(0, len(fpi), 14)]
    mods = {}
    for k, g in enumerate(groups, 1):
        out = "import Verif.Data.All\nimport Verif.Lemmas.FitsScan\n\n" + head
        for pair in g:
            e = pair[0][0]
            for kind, (_, a, b, c, x) in zip(["fpi", "slsqp"], pair):
                out += f"/-- `{e}` in `data/kl_{kind}_results.json`. -/\nnoncomputable def {kind}_{e} : JEntry := ⟨chars! "
                out += f"{lit(e)}, chars! {lit(a)}, chars! {lit(b)}, [\n  "
                out += ",\n  ".join("chars! " + lit(w) for w in c) + "], [\n  "
                out += ",\n  ".join("chars! " + lit(w) for w in x) + "]⟩\n\n"
            out += f"theorem fits_{e}_ok : fitsOk neutral_{e} fpi_{e} slsqp_{e} = true := by decide +kernel\n\n"
        names = [p[0][0] for p in g]
        out += f"/-- Part {k} of the results. -/\nnoncomputable def fits{k} : List (DataFile × JEntry × JEntry) := [\n  "
        out += ",\n  ".join(f"(neutral_{e}, fpi_{e}, slsqp_{e})" for e in names) + "]\n\n"
        out += f"theorem fits{k}_ok : ∀ p ∈ fits{k}, fitsOk p.1 p.2.1 p.2.2 = true := by\n  intro p hp\n"
        out += f"  unfold fits{k} at hp\n  simp only [List.mem_cons, List.not_mem_nil, or_false] at hp\n"
        out += "  rcases hp with " + " | ".join(["rfl"] * len(names)) + "\n"
        out += "".join(f"  · exact fits_{e}_ok\n" for e in names)
        out += "\nend BFit.Data\n"
        mods[f"Fits{k}.lean"] = out
    n = len(groups)
    out = "".join(f"import Verif.Data.Fits{k}\n" for k in range(1, n + 1)) + "\n" + head
    out += "/-- The data of the neutral atoms, the FPI results and the SLSQP results in the order of the files. -/\n"
    out += "noncomputable def fits : List (DataFile × JEntry × JEntry) := "
    out += " ++ ".join(f"fits{k}" for k in range(1, n + 1)) + "\n\n"
    for kind, proj in [("fpi", "p.2.1"), ("slsqp", "p.2.2")]:
        out += f"/-- The text of `data/kl_{kind}_results.json`. -/\nnoncomputable def {kind}Text : Str := "
        out += f"fitsText (fits.map fun p => {proj})\n\n"
    out += "theorem fits_ok : ∀ p ∈ fits, fitsOk p.1 p.2.1 p.2.2 = true := by\n  intro p hp\n  unfold fits at hp\n"
    out += "  simp only [List.mem_append, or_assoc] at hp\n  rcases hp with " + " | ".join(["h"] * n) + "\n"
    out += "".join(f"  · exact fits{k}_ok p h\n" for k in range(1, n + 1))
    out += "\nend BFit.Data\n"
    mods["FitsAll.lean"] = out
    return mods


def npy(descr, shape, body):
    """A `.npy` file as in `npyHead`."""
    text = "{'descr': '%s', 'fortran_order': False, 'shape': %s, }" % (descr, shape)
    return b"\x93NUMPY\x01\x00v\x00" + text.ljust(117).encode() + b"\n" + body


def npz_entries(kind):
    """Bits of the numbers for every element; encoded as in `NEntry.members` they give the members of the archive."""
    with zipfile.ZipFile(NPZ % kind) as z:
        files = {n: z.read(n) for n in z.namelist()}
        assert len(files) == len(z.infolist())
    out = []
    for e in SYM[: len(files) // 4]:
        row = [e]
        for key in ["num_s", "num_p"]:
            b = files.pop(f"{e}_{key}.npy")
            row.append(struct.unpack("<Q", b[128:])[0])
            assert b == npy("<i8", "()", struct.pack("<Q", row[-1]))
        for key in ["coeffs", "exps"]:
            b = files.pop(f"{e}_{key}.npy")
            n = len(b[128:]) // 8
            row.append(struct.unpack("<%dQ" % n, b[128:]))
            assert b == npy("<f8", "(%d,)" % n, struct.pack("<%dQ" % n, *row[-1]))
        out.append(row)
    assert not files
    return out


def rows(ws):
    """Six numbers in a line."""
    ws = [hex(w) for w in ws]
    return ",\n  ".join(", ".join(ws[i : i + 6]) for i in range(0, len(ws), 6))


def npz():
    head = "/-! Copy of /repo/bfit/data/kl_fpi_results.npz and kl_slsqp_results.npz, generated by tools/gendata.py. -/"
    head += "\n\nnamespace BFit.Data\n\n"
    fpi, slsqp = npz_entries("fpi"), npz_entries("slsqp")
    assert len(fpi) == len(slsqp) == len(fit_entries("fpi"))
    groups = [list(zip(fpi, slsqp))[i : i + 14] for i in range(0, len(fpi), 14)]
    mods = {}
    for k, g in enumerate(groups, 1):
        out = f"import Verif.Data.Fits{k}\nimport Verif.Lemmas.NpzScan\n\n" + head
        for pair in g:
            e = pair[0][0]
            for kind, (_, a, b, c, x) in zip(["fpi", "slsqp"], pair):
                out += f"/-- `{e}` in `data/kl_{kind}_results.npz`. -/\nnoncomputable def {kind}N_{e} : NEntry := ⟨chars! "
                out += f"{lit(e)}, {a}, {b}, [\n  {rows(c)}], [\n  {rows(x)}]⟩\n\n"
            out += f"theorem npz_{e}_ok : (npzOk fpi_{e} fpiN_{e} && npzOk slsqp_{e} slsqpN_{e}) = true := by\n"
            out += "  decide +kernel\n\n"
        names = [p[0][0] for p in g]
        out += f"/-- Part {k} of the results, with the texts. -/\n"
        out += f"noncomputable def npz{k} : List ((JEntry × JEntry) × NEntry × NEntry) := [\n  "
        out += ",\n  ".join(f"((fpi_{e}, slsqp_{e}), fpiN_{e}, slsqpN_{e})" for e in names) + "]\n\n"
        out += f"theorem npz{k}_ok : ∀ p ∈ npz{k}, (npzOk p.1.1 p.2.1 && npzOk p.1.2 p.2.2) = true := by\n  intro p hp\n"
        out += f"  unfold npz{k} at hp\n  simp only [List.mem_cons, List.not_mem_nil, or_false] at hp\n"
        out += "  rcases hp with " + " | ".join(["rfl"] * len(names)) + "\n"
        out += "".join(f"  · exact npz_{e}_ok\n" for e in names)
        out += "\nend BFit.Data\n"
        mods[f"Npz{k}.lean"] = out
    n = len(groups)
    out = "import Verif.Data.FitsAll\n" + "".join(f"import Verif.Data.Npz{k}\n" for k in range(1, n + 1)) + "\n" + head
    out += "/-- The results in the texts and in the archives. -/\n"
    out += "noncomputable def npz : List ((JEntry × JEntry) × NEntry × NEntry) := "
    out += " ++ ".join(f"npz{k}" for k in range(1, n + 1)) + "\n\n"
    for kind, proj in [("fpi", "p.2.1"), ("slsqp", "p.2.2")]:
        out += f"/-- The archive `data/kl_{kind}_results.npz`. -/\nnoncomputable def {kind}Npz : List (Str × List ℕ) := "
        out += f"npzMembers (npz.map fun p => {proj})\n\n"
    out += "theorem npz_ok : ∀ p ∈ npz, (npzOk p.1.1 p.2.1 && npzOk p.1.2 p.2.2) = true := by\n  intro p hp\n"
    out += "  unfold npz at hp\n"
    out += "  simp only [List.mem_append, or_assoc] at hp\n  rcases hp with " + " | ".join(["h"] * n) + "\n"
    out += "".join(f"  · exact npz{k}_ok p h\n" for k in range(1, n + 1))
    out += "\nend BFit.Data\n"
    mods["NpzAll.lean"] = out
    return mods


def main():
    mods = modules()
    if "--check" in sys.argv:
        bad = [n for n, t in mods.items() if open(os.path.join(OUT, n), encoding="utf8").read() != t]
        # the modules Cusp*.lean only evaluate checks of the copied texts
        bad += [n for n in os.listdir(OUT) if n not in mods and not n.startswith("Cusp")]
        print("differences:", bad)
        sys.exit(bool(bad))
    os.makedirs(OUT, exist_ok=True)
    for n, t in mods.items():
        with open(os.path.join(OUT, n), "w", encoding="utf8") as f:
            f.write(t)
    print(len(mods), "modules")


main()

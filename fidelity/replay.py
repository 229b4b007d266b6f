#!/usr/bin/env python3
"""Replays the reference data of the repository with the Lean model.

The repository brings input files together with the products that the program made from them
(RTCM3_TEST_DATA/*/REF) and the contents of ephemeris messages (tests/ephemeris_test_samples.py).
This script runs the model of the program in double precision (`convertFileR Spec.ieee`, Model/RunDouble.lean)
and the model of the log (`convertFileLog`, Model/Log.lean) on the input files and compares:

* JSON products of messages 1005, 1006, 1007, 1029, 1033, 1230 and of the MSM5 and MSM7 files: identical text;
* MARGO products of the MSM5 and MSM7 files: the same set of files, identical text;
* log files of the MSM5 and MSM7 files: identical lines from the third line on (the first two name the time);
* ephemeris messages 1019, 1020, 1041, 1042, 1045, 1046: the tolerance of the repository's test (1e-15);
* the files reference-3msg*.rtcm3: the number of decoded messages per file, printed for inspection.

It tests the model against the program; it proves nothing and is not part of the build. The code of the
repository is not executed. Usage, after `lake build` in /verif/lean:   python3 /verif/fidelity/replay.py
"""
import ast
import glob
import json
import os
import re
import subprocess
import tempfile
from fractions import Fraction

REPO = "/repo"
DATA = f"{REPO}/RTCM3_TEST_DATA"
LEAN = os.path.join(os.path.dirname(os.path.abspath(__file__)), "..", "lean")

SOURCE = r'''
import Verif.Model.RunDouble
import Verif.Model.Log
import Verif.Model.IniText
import Verif.Spec.Double
open Verif Conv Decoder Run

def frQ (x : Rat) : Txt := s!"{x.num}/{x.den}".toList

def main (args : List String) : IO Unit := do
  let path := args[0]!
  let format := args[1]!
  let ini ← IO.FS.readFile args[2]!
  let data ← IO.FS.readBinFile path
  let bytes : Bytes := data.toList
  let (mgr, _) := ({} : Ctl.Manager).initFromFile id (Ctl.iniFile (some ini.toList))
  let box := mgr.boxed
  let src := "/x/msg.rtcm3".toList
  match convertFileR Spec.ieee frQ (fun _ => some bytes) format box {} false src with
  | none => IO.println "DIVERGES"
  | some (_, .error _) => IO.println "EXCEPTION"
  | some ((w, _), .ok v) =>
    IO.println s!"VERDICT {repr v}"
    for (p, t) in w.files do
      IO.println s!"=== {String.ofList p}"
      IO.println (String.ofList t)
  IO.println "=== LOG"
  for r in convertFileLog frQ (fun _ => some bytes) format box {} false src do
    match r.text Spec.ieee with
    | some t => IO.println s!"{repr r.level}: {String.ofList t}"
    | none => IO.println "?"
'''

# The reference products were made with HCA, LOCK_TIME, pretty view, header and service data on.
FLAGS = """
[MARGO]
HCA = true
LOCK_TIME = true
[JSON]
ENABLE_PRETTY_VIEW = true
ENABLE_HDR_DATA = true
ENABLE_AUX_DATA = true
[TIME]
GPS2UTC : 18
[LITERALS]
""" + "\n".join(f"R{i + 1} : {k}" for i, k in enumerate(
    [1, -4, 5, 6, 1, -4, 5, 6, -2, -7, 0, -1, -2, -7, 0, -1, 4, -3, 3, 2, 4, -3, 3, 2])) + "\n"

TMP = tempfile.mkdtemp()
PROGRAM = os.path.join(TMP, "Replay.lean")
INI = os.path.join(TMP, "flags.ini")
with open(PROGRAM, "w", encoding="utf-8") as f:
    f.write(SOURCE)
with open(INI, "w", encoding="utf-8") as f:
    f.write(FLAGS)


def run(path, fmt, ini):
    """Verdict, products and log of the model."""
    r = subprocess.run(["lake", "env", "lean", "--run", PROGRAM, path, fmt, ini], cwd=LEAN, capture_output=True, check=True)
    out = r.stdout.decode()
    out = out[out.index("VERDICT"):] if "VERDICT" in out else out
    parts = re.split(r"^=== (.*)\n", out, flags=re.M)
    files = {k: v.removesuffix("\n") for k, v in zip(parts[1::2], parts[2::2])}
    return parts[0].strip(), files


def fix(text):
    """The model shows floats by their value; `json` shows them by the shortest literal."""
    return re.sub(r"(-?\d+)/(\d+)", lambda m: repr(float(Fraction(int(m[1]), int(m[2])))), text)


OPS = {ast.Add: lambda x, y: x + y, ast.Sub: lambda x, y: x - y, ast.Mult: lambda x, y: x * y, ast.Div: lambda x, y: x / y}


def number(node):
    """Value of a constant expression in the reference lists."""
    if isinstance(node, ast.BinOp):
        return OPS[type(node.op)](number(node.left), number(node.right))
    return ast.literal_eval(node)


def text_of(path):
    """Contents of a reference file with the line ends of the model."""
    with open(path, newline="", encoding="utf-8") as file:
        return file.read().replace("\r\n", "\n").strip("\n")


good = bad = 0


def check(what, ok):
    """Counts and reports."""
    global good, bad
    good, bad = good + bool(ok), bad + (not ok)
    print(("ok   " if ok else "DIFF ") + what, flush=True)


for n in ("1005", "1006", "1007", "1029", "1033", "1230"):
    ref = glob.glob(f"{DATA}/BASE/REF/*-{n}.json")[0]
    verdict, fs = run(f"{DATA}/BASE/msg{n}.rtcm3", "JSON", f"{REPO}/defaults.ini")
    (k,) = [k for k in fs if k.endswith(".json")]
    check(f"BASE {n} {verdict}", fix(fs[k]).strip("\n") == text_of(ref))

with open(f"{REPO}/tests/ephemeris_test_samples.py", encoding="utf-8") as f:
    tree = ast.parse(f.read())
LISTS = {"_G": 1019, "_R": 1020, "_EF": 1045, "_EI": 1046, "_B": 1042, "_I": 1041}
for node in tree.body:
    if not (isinstance(node, ast.Assign) and node.targets[0].id in LISTS):
        continue
    n = LISTS[node.targets[0].id]
    refs = [{kw.arg: number(kw.value) for kw in call.keywords} for call in node.value.elts]
    for fmt in ("JSON",):
        verdict, fs = run(f"{DATA}/EPH/msg{n}.rtcm3", fmt, f"{REPO}/defaults.ini")
        (k,) = [k for k in fs if k.endswith(".json")]
        got = json.loads(fix(fs[k]))[1:]
        same = len(got) == len(refs)
        exact = same
        for g, r in zip(got, refs):
            for key, val in r.items():
                x = g.get(key)
                if isinstance(val, (int, float)) and isinstance(x, (int, float)):
                    if x != val:
                        exact = False
                        if abs(x - val) > 1e-15 * max(abs(x), abs(val)) and abs(x - val) > 1e-15:
                            same = False
                            print("    ", n, key, x, val)
                elif x != val:
                    same = exact = False
                    print("    ", n, key, x, val)
        check(f"EPH {n} {fmt} {verdict} {len(got)} messages, all digits: {exact}", same)

for m in ("MSM5", "MSM7"):
    for p in sorted(glob.glob(f"{DATA}/{m}/*.rtcm3")):
        b = os.path.basename(p)[:-6]
        for fmt in ("JSON", "MARGO"):
            verdict, fs = run(p, fmt, INI)
            base = f"{DATA}/{m}/REF/{b}-{fmt}"
            refs = {os.path.relpath(os.path.join(d, f), base): os.path.join(d, f) for d, _, ff in os.walk(base) for f in ff}
            mine = {k[len(f"/x/msg-{fmt}/"):].replace("msg-log", f"{b}-log"): t for k, t in fs.items() if k != "LOG"}
            check(f"{m} {b} {fmt} {verdict}: the same {len(refs)} files", set(refs) == set(mine))
            for k in sorted(refs):
                if k.endswith("log.txt"):
                    want = [re.sub(r"E:\\.*rtcm3", "/x/msg.rtcm3", x) for x in text_of(refs[k]).split("\n")[2:] if x]
                    have = [re.sub(r"Verif.Run.Level.(\w+)", lambda y: "RTCMDEC:" + y[1].upper(), x) for x in fs["LOG"].split("\n")]
                    check(f"{m} {b} {fmt} {k}: {len(want)} lines", want == have)
                elif k in mine:
                    x = fix(mine[k]) if fmt == "JSON" else mine[k]
                    check(f"{m} {b} {fmt} {k}", x.strip("\n") == text_of(refs[k]))

for p in sorted(glob.glob(f"{DATA}/reference-3msg*.rtcm3")):
    verdict, fs = run(p, "JSON", f"{REPO}/defaults.ini")
    ok = fs["LOG"].count("Decoding succeeded")
    last = [x for x in fs["LOG"].split("\n") if " messages, " in x][-1]
    print("info", os.path.basename(p), verdict, "decoded:", ok, "|", last.split(": ", 1)[1])

print(f"{good} comparisons agree, {bad} differ")

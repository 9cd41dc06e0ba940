#!/usr/bin/env python3
"""Writes MANIFEST.json from the theorems in lean/Verif/Props and the notes below.

A property is `proved` when it has theorems and none of them has the suffix _partial, unless STATUS overrides it."""
import glob, json, os, re
R = os.path.join(os.path.dirname(os.path.abspath(__file__)), "..")
STATUS = {}
NOTE = {
 "C03": "Power-of-two block sizes; C03_pkcs7_add_not_power_of_two shows that other sizes give wrong lengths.",
 "C04": "C04_pkcs7_rem_add_empty proves the failure for the empty message.",
 "C06": "Portable configuration (no KRIPTO_*_ENDIAN).",
 "C07": "Fixed-count macros from the generated table Verif/Gen/Rot.lean; ROR8_6 shown wrong.",
 "C08": "Default rounds. Speck keys of one word: C13_speck*_short_key. Tweaks: C08_*_tweak.",
 "C09": "Default rounds.",
 "C10": "Default rounds; key lengths for which creation is undefined: C13.",
 "C11": "For every combination listed in Verif/Spec/BlockLib.lean (all ciphers, all round counts of C12).",
 "C12": "Equivalences for all ciphers but Threefish, Twofish and ARIA, where the condition is shown sufficient and a failing instance outside it is exhibited.",
 "C13": "Bounds are checked by every array access of the model.",
 "C20": "For any block cipher object whose encryption and decryption are total and inverse; all ciphers of the library are.",
 "C22": "C22_cfb_decrypt_broken, C22_cfb_decrypt_two_blocks_wrong and C22_cfb_decrypt_overrun prove the defects.",
 "C28": "C28_cfb_decrypt_wrong proves that CFB decryption in place is wrong.",
 "C14": "Histories are lists of (rounds, key).",
}
exec(open(os.path.join(R, "tools", "notes.py")).read()) if os.path.exists(os.path.join(R, "tools", "notes.py")) else None
claims = []
for l in open(os.path.join(R, "properties.jsonl")):
    c = json.loads(l)["id"]
    th = []
    for f in sorted(glob.glob(os.path.join(R, "lean/Verif/Props", c + "*.lean"))):
        th += ["Kripto.Props." + m for m in re.findall(r"^theorem (" + c + r"\w*)", open(f).read(), re.M)]
    st = STATUS.get(c) or (("partial" if any(t.endswith("_partial") for t in th) else "proved") if th else None)
    if st is None: continue
    claims.append({"property": c, "status": st, "theorems": th, "note": NOTE.get(c, "")})
with open(os.path.join(R, "MANIFEST.json"), "w") as f:
    f.write('{"claims": [\n' + ",\n".join(" " + json.dumps(c) for c in claims) + "\n]}\n")
print(len(claims), sum(len(c["theorems"]) for c in claims))

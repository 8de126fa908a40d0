"""Lists the theorems that show a defect of the code (their comment says so) in DEFECTS.md."""
import re, os, glob
root = os.path.join(os.path.dirname(__file__), "..", "lean", "Verif")
out = []
for f in sorted(glob.glob(root + "/**/*.lean", recursive=True)):
    s = open(f).read()
    for m in re.finditer(r"/--((?:(?!-/).)*)-/\s*(?:open[^\n]*in\s*)?(?:@\[[^\]]*\]\s*)?theorem (C\d\d+_\w+)", s, re.S):
        doc = " ".join(m.group(1).split())
        if re.search(r"defect|negation", doc, re.I):
            doc = re.sub(r"^C\d\d+\s*:?\s*", "", doc)
            out.append((m.group(2), doc, os.path.relpath(f, root)))
out.sort()
if __name__ == "__main__":
    with open(os.path.join(os.path.dirname(__file__), "..", "DEFECTS.md"), "w") as g:
        g.write("# Defects shown by the theorems\n\nWhere a property one would expect is false of the code, the theorem below "
                "proves what the code does instead, in\ngeneral or with a concrete witness. Generated by `tools/gen_defects.py` from "
                "the comments in the model.\n\n")
        for n, d, f in out:
            g.write(f"* `{n}` ({f}): {d}\n")
    print(len(out))

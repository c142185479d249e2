"""Lists the property theorems with the first sentence of their comments."""
import re, glob
for f in sorted(glob.glob('/verif/lean/Verif/Props/*.lean')):
    s = open(f).read()
    for m in re.finditer(r'/--((?:(?!-/).)*?)-/\s*(?:@\[[^\]]*\]\s*)?(?:omit [^\n]* in\s*)?(?:set_option [^\n]* in\s*)?theorem (C\d\d_\w+)', s, re.S):
        d = ' '.join(m.group(1).split())
        print(m.group(2), '|', d[:170])

"""Helper: insert p(...) text into mkprops.py before the writer."""
import sys
s=open('/verif/scripts/mkprops.py').read()
i=s.index("with open('/verif/properties.jsonl'")
open('/verif/scripts/mkprops.py','w').write(s[:i]+sys.stdin.read()+s[i:])

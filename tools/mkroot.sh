#!/bin/bash
cd /verif/lean
(find Verif -name '*.lean' | grep -v Audit | LC_ALL=C sort | sed 's/\.lean$//; s/\//./g; s/^/import /'; echo "import Verif.Audit") > Verif.lean
python3 - <<'PY'
import glob,re
p='Verif/Audit.lean'
s=open(p).read()
mods=sorted(glob.glob('Verif/Props/*.lean'))
imps="import Lean\n"+"".join("import "+m[:-5].replace('/','.')+"\n" for m in mods)
s=re.sub(r"\A(import .*\n)+",imps,s)
open(p,'w').write(s)
PY

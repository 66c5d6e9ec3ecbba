#!/bin/bash
# declaration names that occur in more than one module (they break importing both)
cd /verif/lean/Verif && grep -rnoP "^(private )?(noncomputable )?(theorem|def|inductive|structure|abbrev) \K[^\s:({\[]+" --include=*.lean . | grep -v "/Abnf.lean" | awk -F: '{print $3" "$1}' | sort -u | awk '{c[$1]++; f[$1]=f[$1]" "$2} END{for(k in c) if(c[k]>1) print k, f[k]}'

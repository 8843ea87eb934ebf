#!/bin/sh
# Names defined in more than one module under lean/Verif (private ones excluded).
cd "$(dirname "$0")/../lean/Verif" || exit 1
grep -rhoE '^(def|abbrev|structure|inductive|theorem|notation) +[A-Za-z_.0-9'"'"']+' . --include='*.lean' | awk '{print $2}' | sort | uniq -d

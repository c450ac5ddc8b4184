#!/bin/sh
# Compile Verif/Exec/FloatRun.lean together with the model and run it on the input files of the repository's tests.
# Usage: tools/floatrun.sh [REPO]      (needs clang, which comes with Lean; the output goes to a temporary directory)
set -e
repo=${1:-/repo}
cd "$(dirname "$0")/../lean"
lake build Verif.Exec.FloatRun >/dev/null
out=$(mktemp -d)
seen=""
visit() {
  case " $seen " in *" $1 "*) return ;; esac
  seen="$seen $1"
  for d in $(sed -n 's/^import \(Verif\.[A-Za-z0-9_.]*\).*/\1/p' "$(echo "$1" | tr . /).lean"); do visit "$d"; done
}
visit Verif.Exec.FloatRun
objs=""
for m in $seen; do
  p=$(echo "$m" | tr . /)
  lake env leanc -c -O2 -o "$out/$m.o" ".lake/build/ir/$p.c"
  objs="$objs $out/$m.o"
done
lake env leanc -o "$out/floatrun" $objs
"$out/floatrun" "$repo/tests/test-data" "$repo/src/ciceroscm/default_data"
rm -r "$out"

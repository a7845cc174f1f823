#!/bin/sh
# Fidelity check: translate the real-number model to IEEE doubles by textual substitution and
# compare it with the expected values of /repo/tests (copied into checks.txt).
# Nothing here is part of the verified development.
set -e
here=$(cd "$(dirname "$0")" && pwd)
model="$here/../lean/Verif/Model"
out=${1:-/tmp/fidelity}
mkdir -p "$out"
{
  echo 'import Mathlib.Logic.Function.Basic'
  echo 'import Mathlib.Tactic.TypeStar'
  # the non-numeric part of Py.lean
  sed -n '/^namespace Openspace/,/^noncomputable section/p' "$model/Py.lean" | sed '$d'
  cat "$here/float_prelude.txt"
  for f in Linalg Functions Time Celestial Positions States Elements Maneuvers Hardware \
           Inertial Relative Obs Iod Filtering Artificial Terrestrial; do
    sed -e '/^import /d' -e '/^namespace Openspace$/d' -e '/^end Openspace$/d' \
        -e 's/^noncomputable section/section/' -e 's/ℝ/Float/g' "$model/$f.lean"
  done
  cat "$here/checks.txt"
  echo 'end Openspace'
  echo '#eval Openspace.main'
} > "$out/Fidelity.lean"
cd "$out" && lean Fidelity.lean

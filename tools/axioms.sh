#!/bin/sh
# Print the axioms of every theorem of Verif/Props (run after `lake build`).
cd /verif/lean || exit 1
{
  echo "import Verif"
  grep -hoE "^theorem [A-Za-z0-9_.']+" Verif/Props/*.lean | sed 's/^theorem \(.*\)$/#print axioms Zcc.\1/'
} > /tmp/verif_axioms.lean
lake env lean /tmp/verif_axioms.lean

#!/bin/sh
# Regenerates lean/Verif.lean from the modules under lean/Verif.
cd "$(dirname "$0")/../lean" || exit 1
find Verif -name '*.lean' | sort | sed 's/\.lean$//; s,/,.,g; s/^/import /' > Verif.lean

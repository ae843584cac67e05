#!/bin/sh
# Runs the model on the recorded key sets and outputs under /repo (see DESIGN.md, section 2).
mkdir -p /tmp/gold
cp "$(dirname "$0")/golden.lean.txt" /tmp/gold/golden.lean
cd "$(dirname "$0")/../lean" && lake env lean --run /tmp/gold/golden.lean

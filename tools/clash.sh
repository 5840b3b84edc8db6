#!/bin/bash
# Lists names defined at top level in more than one module.
cd "$(dirname "$0")/../lean/Verif"
grep -rhoE "^(noncomputable )?(def|theorem|structure|inductive|abbrev|lemma|instance) [A-Za-z_][A-Za-z0-9_.']*" . | awk '{print $NF}' | sort | uniq -d

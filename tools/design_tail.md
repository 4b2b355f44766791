
## 6. How the result is checked

* `lake build` in `lean/`, from a fresh checkout; `vcheck` for the whole gate.
* `tools/make_properties.py`, `tools/make_manifest.py`, `tools/make_design.py` regenerate `properties.jsonl`,
  `MANIFEST.json` and this file.
* Wrong programs: a scratch copy of the model is edited the way a realistic bug would change the program and
  all modules that the theorems of the broken claim need are recompiled; a theorem counts as failed when it, or a
  lemma it uses, no longer compiles.  `seeded/LOG.jsonl` has one line per attempt: the definition, the edit,
  the claim it breaks, the theorems that failed and the theorems that were added or tightened because an
  earlier version of the theorems had not noticed the edit.

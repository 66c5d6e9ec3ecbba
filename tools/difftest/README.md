Fidelity check of the Lean model against the expectations written in /repo's own field tests (static text; no repo
code is run).  `extract.py` reads the 344 `FieldTest` classes, `gen.py` turns them into a Lean program (with answers
for the library oracles computed by the Python standard library and the small RFC 9651 parser in `sf.py`) and runs
it with `lake env lean --run`, `cmp.py` compares values and note classes.  Paths refer to /tmp/diff.
Result: 344 of 344 agree, up to the comparator's naming (classes of the same name in two files, the subclass
BAD_SYNTAX_DETAILED of BAD_SYNTAX, one test that selects the request linter explicitly).

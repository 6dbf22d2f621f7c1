
## Wrong programs tried against the theorems

`seeded/LOG.jsonl` has one line per edit; `tools/mutation_results` keeps the raw results, `tools/gen_log.py` makes the one of the other.
@N@ edits were tried:

| runs | what was edited | edits | killed | survived |
|---|---|---|---|---|
@TABLE@

Runs 1-9 edit a definition of the Lean model by hand and rebuild all theorems; examples alone do not count as a kill.
Runs T edit the Python text by program (a constant one up or down, a comparison negated, two arguments swapped, a name replaced by another of the same function, a call or a `raise` dropped, a keyword argument left out, a bound of a slice dropped, a string changed, an operator replaced); X, Y and I by hand, as a realistic bug would.
After an edit of the text, `tools/gen_src.py` translates it again, so that the edit reaches the theorems through the same path as the code itself; where the edited text leaves the part of Python that the translation takes, there is no model and nothing to prove (noted in the row).
Run C edits the characters of the files as they stand in `Verif/Py/Of*.lean` and keeps everything else, so that no translation is involved; run S edits the lexer, the parser, the meaning
(`Verif/Py/{Syntax,Meaning,Classes,Tops}.lean`) and the program as a whole (`Verif/Py/Program.lean`), and rebuilds the theorems about the characters.
For these runs `theorems_failed` lists the theorems that no longer build because the lemma that failed is below them.

The edits that survive are equivalent to the original on every execution (a fuel bound that is never reached, a message that no call can reach, the failing branch of `fi` for a round that does not occur), or the row says which claim now covers them.

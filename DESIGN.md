# A Lean 4 model of multiscript/bibleref

The source in `/repo/src/bibleref` was read as text; nothing of it is built or run. `properties.jsonl` lists the
properties, `MANIFEST.json` says which theorems prove which, `seeded/LOG.jsonl` records the wrong programs the theorems
were tried on, and this file says how it all works.

## Trusted base

* Lean 4.33.0's kernel. No axioms are added; theorems depend at most on `propext`, `Classical.choice`, `Quot.sound`.
  No `sorry`, `admit`, `native_decide`, `bv_decide`.
* The reading of Python in the model: each definition under `Verif/Model` cites the file and lines it mirrors, and
  its comment says where it simplifies.
* Python's standard library as documented: dataclass ordering is lexicographic on `(book, chap_num, verse_num)` resp.
  `(start, end)`; `Enum`/`Flag`; `str.strip`, `int`, `re.fullmatch` with `re.IGNORECASE`.
* Lark: where the grammar expects a terminal, the Earley parser with the dynamic lexer takes the longest match of the
  terminal's regular expression at the current position, or after a run of ignored white space; callbacks run depth first,
  left to right; the transformer object keeps its attributes between parses, also after an exception. That the model's
  recursive descent parser finds exactly the derivations of the grammar is proved (C53), that Lark does is trusted. For a
  string that does not fit, `pos_in_stream` is the furthest position reached by any reading, or -1 if that is the end of the
  string; the positions of a rule or token are those of its first character and after its last one.

## Architecture

| module | content |
|---|---|
| `Verif/Model/Book.lean` | flags, `BibleData`, books, `book_order` setter |
| `Verif/Model/Verse.lean` | `BibleVerse`: constructor, first/last, `add`, `subtract` |
| `Verif/Model/Range.lean` | `BibleRange`: both constructors, counts, `split`, iteration, set operations |
| `Verif/Model/RangeList.lean` | `BibleRangeList` as a function on lists of groups; ranges with list arguments |
| `Verif/Model/Heap.lean` | `GroupedList` as linked nodes in memory: every method, group views |
| `Verif/Model/Loops.lean` | `for` loops over a list, its groups or one group whose body changes the list |
| `Verif/Model/Iterators.lean` | iterators over lists advanced with `next()` |
| `Verif/Model/VerseIterators.lean` | iterators over the verses of a range advanced with `next()` |
| `Verif/Model/RangeHeap.lean` | `BibleRangeList` methods on linked nodes, with aliasing, recursion depth and fuel |
| `Verif/Model/Text.lean` | characters, names of books, `BibleBook.from_str` |
| `Verif/Model/Str.lean` | the three `str` methods, `regroup` |
| `Verif/Model/Repr.lean` | the three `__repr__` methods |
| `Verif/Model/GroupStr.lean` | strings of group views and lists (`GroupedList`) |
| `Verif/Model/Parser.lean` | grammar, parse trees, transformer with its persistent state, constructors from strings |
| `Verif/Model/Positions.lean` | the positions in a `BibleRefParsingError` |
| `Verif/Model/Setters.lean` | the setters of `BibleData` with all places they write to |
| `Verif/Model/Calls.lean` | `chap_ranges` |
| `Verif/Model/Values.lean` | the constructors and the methods taking a Bible reference, with arguments of any type |
| `Verif/Model/Order.lean` | the four comparisons |
| `Verif/Model/ListValues.lean` | the methods from `GroupedList`, with arguments of any type |
| `Verif/Model/Threads.lean` | reading strings as sequences of single accesses to the shared transformer; threads taking turns |
| `Verif/Model/DefaultData.lean` | the tables of `data.py` |
| `Verif/Spec.lean` | `canon`, the list of all verses in reading order; what a range covers; well-formed data |
| `Verif/SpecLists.lean` | what the operations of a grouped list mean on a list of lists |
| `Verif/SpecLoops.lean` | what such a loop means, with a position in the list |
| `Verif/SpecIterators.lean` | programs with calls and iterators, and what they mean |
| `Verif/SpecText.lean` | the grammar as an inductive relation; recognisable names |
| `Verif/SpecMeaning.lean` | what a reference string means, looking back at the text |
| `Verif/SpecPositions.lean` | text that is right so far; what is wrong with a text |
| `Verif/SpecHistory.lean` | programs over lists of ranges: calls, the reachable heaps |
| `Verif/SpecValues.lean` | which Python values stand for references, books and numbers |
| `Verif/SpecListValues.lean` | which calls of list methods have the intended types |
| `Verif/SpecShown.lean` | what is shown of a verse; names that can be told apart |
| `Verif/SpecSpelling.lean` | ways of writing the same reference |
| `Verif/SpecFlags.lean` | allowing no more than other flags |
| `Verif/SpecJoined.lean` | one list of ranges after another |
| `Verif/SpecOrder.lean` | comparisons of positions |
| `Verif/SpecData.lean` | data with the same verses, the same shown names, the same names for reading |
| `Verif/SpecUnlisted.lean` | the same data with another book order |
| `Verif/SpecThreads.lean` | references that leave nothing to be understood; what the transformer remembers |
| `Verif/Lemmas/*` | helper lemmas |
| `Verif/Props/*` | the property theorems, each with an `example` meeting its hypotheses |
| `Verif/Tests/*` | the project's own tests and documented sessions, run on the model |

### Model conventions

* Global state is a parameter `Env = (data, flags)`: the current `BibleData` and `bibleref.flags`. A `flags=None`
  argument is `none`; `eff` mirrors `flags or bibleref.flags or BibleFlag.NONE`.
* `BibleData` is arbitrary (any book order, chapter table, verse-0 sets, names, separators) subject to the decidable
  condition `WF`: no book occurs twice in the order, and every book has at least one chapter, each with at least one verse.
  The order may omit books. The default tables of `data.py` are transcribed and proved `WF`. `Full` is `WF` with every book
  in the order; only theorems about reference strings and about constructor arguments of arbitrary type need it.
* A book outside the order has order `None`, and comparing it with another book raises `TypeError`, at the comparison and
  after whatever the code did before it. So `<`, `<=` and every method that compares give an `Except PyErr`. Theorems in which
  verses of several books are compared speak of listed books: `Valid` is "exists, and its book is in the order". C65 is about
  the verses of one book outside the order, and about what happens when they meet verses of other books. The lemmas reason with
  total Boolean comparisons (`Lemmas/Compare.lean`), which agree with the model's wherever it does not raise; no property is
  stated with them.
* Exceptions are values (`Except PyErr`), including the unintended ones (`AttributeError` on `None`, `TypeError`).
* Loops are structural recursion or take fuel; running out of fuel is the distinct outcome `diverges`, and theorems show
  either that some fuel suffices or (for the defects) that none does.
* `GroupedList` is modelled at pointer level (heap of nodes with `prev`, `next`, `is_group_head`, `prev_head`,
  `next_head`, `parent`). A method is a computation on the heap; what it wrote before raising stays written. The heap is
  refined to a family of lists of non-empty lists (`World`).
* `BibleRangeList` is modelled twice: on lists of groups, where the set-like theorems are proved, and on the heap, where
  operands may be the same object. `Lemmas/RangeHeap*.lean` prove that the second refines the first as long as the operands
  are different, and that the heap stays coherent in any case. `Props/Histories.lean` carries the theorems over to lists in
  any heap that a program can reach (`Reachable`: any sequence of calls, any environment at each call).
* The recursion limit: `sort` is recursive in the code. The heap model has a parameter `depth`, the number of nested calls
  still allowed; when it is used up the result is `RecursionError` and the list is left as it is at that moment. The
  list-level `sort`/`merge` ignore the limit.
* Strings are lists of characters. What Python does with characters above 127 (`\w`, `\s`, case folding) is a parameter
  `Uni` about which nothing is assumed.

### Specification

`canon d v0` is the list of all verses in reading order (with verse 0s if `v0`). A range covers the verses of `canon`
between its endpoints. All set-like theorems are statements about membership of verses in `canon`.

## What is not modelled

* Wrong argument types outside the constructors, the methods taking a Bible reference (`Model/Values.lean`) and the methods of
  lists (`Model/ListValues.lean`); objects with special methods of their own as arguments.
* Messages of exceptions.
* `int(token)` for more than 4300 digits (CPython refuses it).
* Deliberate misuse: writing to private attributes, mutating the tables inside `BibleData` without the setters.
* Threads, apart from reading strings (C79), where the settings do not change meanwhile. That one access to an attribute or a
  global is not interrupted is taken from the Python interpreter; that threads can share the Lark parser from Lark.
* Separators with which Lark refuses the grammar, and names which are no valid regular expressions.
* Lark and `re` themselves, see above.

## How the properties are proved

C01 constructor decision logic, by cases. C02 order against position in `canon`, by induction on the order list.
C03-C08 refinement of the loops to indexing into `canon`, induction over the remaining chapters.
C09-C13, C54 decision logic. C14 iteration is a sublist of `canon`, by induction using C03. C15/C16 counting, arithmetic over
prefix sums. C17-C18 order reasoning. C19 loop invariant over the remaining range;
C19_unique: of two lists of pieces that agree up to some point, the one with the longer next piece breaks the rule that made the
other one end. C20-C25 order reasoning through positions.
C26-C33 loop invariants over sorted lists. C34-C39 heap invariant plus refinement; C35_sort_exact counts the
nested calls of `sort` in a specification of its own (`SpecSort.lean`). C40-C43, C55-C57 string model, state
machines of writer and reader kept in step by a simulation relation. C44-C45, C53 parser model. C46 finite table of name
patterns lifted by lemmas. C47 decision logic and counterexample. C48 loop over the order. C49 the in-place operators. C50
fuel; termination measures on the heap. C51, C58 invariant over all reachable heaps. C52 reduction to the list operations. C59 C19 and C18. C60-C61 case distinction on types, reduction to the typed
functions. C62 invariant over all histories of assignments. C63 the parser
with positions erases to the one without; steps of a reading can be cut and replayed on other strings. C64
invariant between the parser's state and the text read so far. C65 everything done with the book agrees with what is done when
it is the only book in the order, where the other theorems apply. C66 simulation of the
node the loop holds by a position in the list. C67 case distinction on types, then C34. C68 reduction to
C40-C42. C69 the parse tree of a verse's text determines what is shown. C70 every result is in simplest form, so the laws follow
from those of the verses covered (C26-C28, C31, C33). C71 invariant between what a generator keeps and a place in the list: the
position of its node, or for a node that has been removed the chain of links that starts there. C72
invariant of the grouping loop over separate ranges: what its state remembers of the range before suffices to tell whether the
next one lies in the same chapter, whichever branches the flags select. C73 the rules of the grammar carry over from one string
to the other, token by token, to a tree with the same numbers and books. C74 the first and last verse with given numbers under
both flags, lifted over the meaning of strings (C64) and the arguments of ranges (C13). C75 the grammar's derivations are cut and put
together at a list separator; the transformer runs over the two parts in turn. C76 case distinction on the first attribute that differs,
then C02. C77 counting the verses of the reading-order list with a property; C15 and C33 for what is counted. C78 the pieces cover what
the range covers (C19), and merged lists with the same verses are equal (C26). C79
assertions about the shared transformer that every access of every thread keeps, so that they hold between any two accesses. C80
invariant over the program: what each iterator has still to give is what C14's loop gives from there, under any flags. C81 no method of this kind
looks at MULTIBOOK, except through `split`, whose result is unique (C19_unique) and described without that flag; for union and
intersection the case distinction of C21-C22, for merging an induction over the sorted list in which what is merged so far and what
follows can be merged exactly when the whole list can. C82 places in the reading-order lists with and without verse 0s, and the number of
verse 0s between two verses, by which they differ. C83 by computation: the functions for two data sets that differ only in names and
separators unfold to the same terms; for strings by following the calls. C84 a list in brackets is decoded from left to right; the
string of a range ends at the first closing parenthesis, and is read back (C68). C85 the pieces of the pieces meet the request of
the single call, and only one list does (C19_unique); for multiples, the last part of k*n verses has n verses. C86 the counts
are lengths of splits; for a number of verses, sums over the pieces, all full but the last. C87 places in the two lists of verses,
with and without verse 0s, that the two steps are made on. C88 the first verse of what follows is the least one after the last verse.

## Known violations in the code as it stands

For these the negation is proved with a concrete witness (`_counterexample`) and the property is kept as a `_partial`
theorem under the hypothesis that is missing:

* C05/C06: `subtract(int)` recomputes the chapter's first verse number without the call's flags.
* C07: distances use the global flags only.
* C08: `add`/`subtract` of a negative number raise `InvalidReferenceError` at a chapter boundary (C08_negative_iff: exactly there).
* C77: a range with a verse 0 at an end is counted with all its verse 0s, but a piece of it only if it has one at an end too.
* C11, C13, C17, C18: `first_verse(chap, flags=VERSE_0)` raises when the global flags lack `VERSE_0` and the chapter has a
  verse 0, and so does all that uses it.
* C14/C15: iteration skips the verse 0s inside a range.
* C16/C33: whole chapters are compared with the first verse allowed by the global flags only.
* C19: `split(num_verses=0)` never terminates.
* C24/C25: `difference` raises `AttributeError` at the edges of a book (or of the Bible) and ignores the flags.
* C29/C30: list `difference` keeps ranges that are entirely covered by the other list; it needs the other list to be in
  canonical form; its final merge is not given the flags.
* C31: `contains` does not join ranges across books without `MULTIBOOK`.
* C81: `union`, `intersection`, `difference` and `merge` of existing ranges raise `MultibookRangeError` without `MULTIBOOK`.
* C82: steps and distances from a verse 0 count verse 0s, those from other verses do not, so that they do not add up.
* C32: list `range()` uses the greatest range rather than the greatest end.
* C34/C36: `insert_group_at` on the start of an existing group makes group iteration cyclic.
* C35/C58: `sort` and `merge` of a long list exceed the recursion limit, and the list has then lost elements. The same happens
  to a list of two ranges if they cannot be compared because a book has been left out of the book order.
* C37: too small negative indices are accepted; empty lists raise other exceptions; `limit_index=0` is ignored.
* C38: views of a cleared list stay usable and corrupt its length.
* C87: `add` on a verse 0 that the flags do not allow counts verse 0s, so it can fall behind the same step from an earlier verse.
* C40-C42, C57: "SongofSongs" is not recognised as a name.
* C41-C43, C56: `str` looks at verse 0s under the flags given in some places and under the global flags in others.
* C42/C55: once `force_dual_ref` is set while showing a list with groups preserved it stays set.
* C44: the parser remembers the book and chapter of the previous parse.
* C47: an explicit `BibleFlag.NONE` is ignored, and the methods named above mix the two flags.
* C49: the in-place operators return `None`.
* C50: `extend`/`union_update` with the list itself never terminate.
* C52: `is_adjacent` with a list ignores the flags, `difference` with an overlapping list raises, `sym_difference` with a
  list always raises.
* C59: as C11, for `chap_ranges` of a book whose first chapter has a verse 0.
* C60: `contains` and `is_disjoint` of a list do not check their argument.
* C61: `BibleRange` compares chapter and verse numbers before converting them with `int`, so that "9" counts as greater than
  "10"; wrong types raise `InvalidReferenceError`, `TypeError` or `AttributeError`; `start` and `end` are not checked.
* C62: a book order with repetitions raises `KeyError` after it has been stored and some books have been given new orders.
* C63: for a string that is right but not complete the positions are -1 and 0.
* C64: "Mark 4-2" is read as Mark 2:28-4:1, which is neither Mark 2-4 nor an error.
* C65: `BibleRange` compares the two books named even if they are the same, so that "Mal 3:1-5" is refused if Malachi is not in
  the book order.
* C66: an element removed during an iteration is yielded nevertheless if the current one has been removed before it, or the list
  cleared; a loop over the groups ends when the first element of the current group is removed or another element is put before
  it in its group; a loop over one group ends when the first element of the group is removed while it is the current one.
* C67: `extend`, `+=` and `append_group` keep the items before a wrong one; `del list[None]` removes the last item; `==` with an
  object that has no length raises `TypeError`; `index` with a range or list as `limit_index` raises `ValueError`, as for an item
  that is not found.
* C68: `repr` of the empty list is `BibleRangeList("")`, which raises when evaluated.
* C71: an iterator gives an element that has been removed if the element it is at was removed before it, and goes on after `clear`.
  An iterator over `list.groups` ends when the first element of the group it is at has been removed.
* C79: all threads share the transformer: a thread's book, chapter, level and flags are overwritten by another thread, so that
  "Mark 2; 3" can give Mark 2 and Luke 3, and even "Jude 3" can raise. Two threads that read for the first time can lose their flags.
* C74: "Psalm 4-2" loses Psalm 4:1, and "Psalm 3-3:1" is no verse any more, when `VERSE_0` is added.

For several of them an exact theorem for all flags says what the code does instead and when: `C05_subtract_exact`,
`C06_subtract_undoes_add`, `C06_add_undoes_subtract` (Props/Steps.lean), `C13_exact`, `C17_*_exact`, `C18_*_exact`,
`C61_range_value_exact` (Props/Defects.lean), `C14_iteration`, `C07_add_back_iff`, `C24_exact`, `C24_right_if_ok`,
`C25_exact`, `C32_exact`, `C32_covers_iff` (Props/Differences.lean), `C16_whole_exact`, `C33_whole_exact`
(Props/WholeCounts.lean), `C29_bounds`, `C29_exact_if_ok`, `C30_exact_if_ok` (Props/DifferenceBounds.lean).

## Trying the model on the project's tests

Whether the model is faithful cannot be proved here, but it can be tried on what the code is known to do. `Verif/Tests` has all
of the project's tests: the 453 assertions of `test/test_reference.py` and the 144 of `test/test_util.py`, translated statement by
statement by the scripts in `tools`, and by hand `test/test_parser.py`, `test/test_bibleref.py` and the sessions in the
documentation of the package. The kernel evaluates each of them, and all hold, with one exception in the
documentation: `BibleRange('1 John').split(by_chap=True, num_verses=15)` is shown as it is with `regroup=False`, which is not the
default (`session1_split`). These are no proofs of properties and no claims rest on them.

## Trying the theorems on wrong programs

A copy of the project outside `/verif` is edited, one definition at a time, the way a programmer might get it wrong, and
rebuilt; proofs that fail are replaced by `sorry`, and the property theorems that depend on one are recorded. An edit that
makes no property theorem fail although it changes what the API does shows a theorem that says too little. Each
attempt is one line of `seeded/LOG.jsonl`. Runs in which Lean was killed are left out and repeated; a run that
exceeded its time limit is marked inconclusive, which is no evidence for or against the theorems. The latest run was preceded by
two edits that change white space only, to see that these make no theorem fail.

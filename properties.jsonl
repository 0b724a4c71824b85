{"id": "C01", "title": "A verse object always denotes an existing verse", "statement": "BibleVerse(book, chap, verse, flags=f) succeeds exactly when the chapter exists in the book and the verse number lies between the first verse number of that chapter (0 when verse 0 is allowed by the flags in force and the chapter has one, otherwise 1) and its last verse number. On success the object carries exactly the given numbers; on failure the call raises InvalidReferenceError and nothing else.", "quantifier": "every well-formed Bible data set, every global flag setting and flags argument, every book and every pair of integers (negative, zero, huge)", "why_tests_cant": "The integers and the Bible data are unbounded and configurable; tests try a handful of valid and invalid numbers in the default data.", "anchors": ["src/bibleref/ref.py:BibleVerse.__init__", "src/bibleref/ref.py:BibleBook.min_verse_num", "src/bibleref/ref.py:BibleBook.max_verse_num"]}
{"id": "C02", "title": "Verse comparison is reading order", "statement": "For verses that exist, v < w holds exactly when v comes strictly before w in the list of all verses in reading order (books in the configured order, chapters and verses ascending); <=, >, >= agree with it, exactly one of v < w, v == w, v > w holds, and the order is transitive.", "quantifier": "every well-formed data set (including every book order, also orders that omit books), all pairs/triples of existing verses", "why_tests_cant": "There are about 10^9 pairs of verses for each of 66! book orders.", "anchors": ["src/bibleref/ref.py:BibleVerse", "src/bibleref/ref.py:BibleBook.__lt__", "src/bibleref/ref.py:BibleBook.order", "src/bibleref/data.py:BibleData.book_order"]}
{"id": "C03", "title": "Adding n verses across books is a walk of n steps", "statement": "With MULTIBOOK in force, v.add(n) for n >= 0 returns the verse n places after v in the reading-order list of all verses allowed by the flags, or None when that list has no such place. It never raises and never returns anything else.", "quantifier": "every well-formed data set, global flags, flags argument with MULTIBOOK in force, every verse of the universe, every n >= 0", "why_tests_cant": "The loop carries over chapters and books; correctness at every boundary for every n is an unbounded statement.", "anchors": ["src/bibleref/ref.py:BibleVerse.add"]}
{"id": "C04", "title": "Adding n verses without MULTIBOOK stays inside the book", "statement": "Without MULTIBOOK, v.add(n) for n >= 0 returns the verse n places after v within the verses of v's own book, or None when the book has no such verse.", "quantifier": "every well-formed data set, flags without MULTIBOOK in force, every verse of the universe, every n >= 0", "why_tests_cant": "Same loop; unbounded n and arbitrary chapter tables.", "anchors": ["src/bibleref/ref.py:BibleVerse.add"]}
{"id": "C05", "title": "Subtracting n verses is a walk of n steps back", "statement": "v.subtract(n) for n >= 0 returns the verse n places before v among the verses allowed by the flags in force (of the whole Bible with MULTIBOOK, of the book without), or None when there is no such verse.", "quantifier": "every well-formed data set, global flags, flags argument, every verse of the universe, every n >= 0", "why_tests_cant": "Unbounded n, arbitrary chapter tables and every combination of global and per-call flags; the flags mix-up only shows for particular combinations and distances.", "anchors": ["src/bibleref/ref.py:BibleVerse.subtract"]}
{"id": "C06", "title": "Adding then subtracting returns to the same verse", "statement": "If v.add(n) returns w (not None), then w.subtract(n) with the same flags returns v, and the other way round.", "quantifier": "every well-formed data set and flags, every verse of the universe, every n >= 0", "why_tests_cant": "Relational property between two loops over all starting points and distances.", "anchors": ["src/bibleref/ref.py:BibleVerse.add", "src/bibleref/ref.py:BibleVerse.subtract"]}
{"id": "C07", "title": "Verse difference is the signed distance", "statement": "v.subtract(w) for two verses is the signed number of places between them in the list of verses allowed by the global flags; it is antisymmetric, it is 0 only for equal verses, and w.add(v.subtract(w)) is v whenever v is not before w. Without MULTIBOOK in the global flags it raises MultibookRangeNotAllowedError exactly when the books differ.", "quantifier": "every well-formed data set and global flags, all pairs of existing verses", "why_tests_cant": "Quadratically many pairs, arbitrary data.", "anchors": ["src/bibleref/ref.py:BibleVerse.subtract", "src/bibleref/ref.py:BibleRange.verse_count"]}
{"id": "C08", "title": "Negative distances never yield a non-existent verse", "statement": "Whatever integer n is passed (positive or negative), v.add(n) and v.subtract(n) return None, or a verse that exists under the flags in force, or raise InvalidReferenceError. Moving by a negative number in one direction is moving by the positive number in the other direction.", "quantifier": "every well-formed data set and flags, every existing verse, every integer n", "why_tests_cant": "All integers; the negative side of both loops is untested.", "anchors": ["src/bibleref/ref.py:BibleVerse.add", "src/bibleref/ref.py:BibleVerse.subtract"]}
{"id": "C09", "title": "Verse 0 conversions are mutually inverse and stay valid", "statement": "verse_0_to_1 turns a verse 0 into verse 1 of the same chapter and leaves every other verse alone; verse_1_to_0 turns verse 1 of a chapter that has a verse 0 into that verse 0 and leaves every other verse alone. Both never raise, are idempotent, return existing verses, never move past another verse in reading order, and 1_to_0 after 0_to_1 gives back every verse 0. The same holds endpoint-wise for ranges and element-wise for lists.", "quantifier": "every well-formed data set and global flags, every existing verse, range and list", "why_tests_cant": "Depends on every chapter table and flag setting.", "anchors": ["src/bibleref/ref.py:BibleVerse.verse_0_to_1", "src/bibleref/ref.py:BibleVerse.verse_1_to_0", "src/bibleref/ref.py:BibleRange.verse_0_to_1", "src/bibleref/ref.py:BibleRange.verse_1_to_0", "src/bibleref/ref.py:BibleRangeList.verse_0_to_1", "src/bibleref/ref.py:BibleRangeList.verse_1_to_0"]}
{"id": "C10", "title": "Walking books forwards and backwards", "statement": "next() and prev() of books walk the configured order one step: b.next() is c exactly when c.prev() is b, next() is None exactly for the last book and prev() is None exactly for the first; repeated next() from the first book visits every book once.", "quantifier": "every book order without repetitions (it may omit books), every book", "why_tests_cant": "66! book orders; orders can be changed at run time.", "anchors": ["src/bibleref/ref.py:BibleBook.next", "src/bibleref/ref.py:BibleBook.prev", "src/bibleref/data.py:BibleData.book_order"]}
{"id": "C11", "title": "First and last verses of books and chapters", "statement": "book.first_verse/last_verse (optionally of a chapter) return the least and the greatest existing verse of that book or chapter allowed by the flags given, and raise InvalidReferenceError exactly when the chapter does not exist; is_first_in_*/is_last_in_* of a verse hold exactly for those verses.", "quantifier": "every well-formed data set, global flags, flags argument, every book, every integer chapter", "why_tests_cant": "All combinations of global and per-call flags with all chapters and configurable verse-0 sets.", "anchors": ["src/bibleref/ref.py:BibleBook.first_verse", "src/bibleref/ref.py:BibleBook.last_verse", "src/bibleref/ref.py:BibleVerse.first_verse", "src/bibleref/ref.py:BibleVerse.last_verse", "src/bibleref/ref.py:BibleVerse.is_first_in_chap", "src/bibleref/ref.py:BibleVerse.is_last_in_book"]}
{"id": "C12", "title": "Ranges are ordered and never silently cross books", "statement": "BibleRange(start=v, end=w) gives a range whose endpoints are v and w put in reading order; whenever construction succeeds start <= end, and if the books of the endpoints differ then MULTIBOOK is in force; if they differ and it is not in force MultibookRangeNotAllowedError is raised. Swapping the arguments gives the same range.", "quantifier": "every well-formed data set, global flags, flags argument, all pairs of existing verses", "why_tests_cant": "All pairs of verses and all flag combinations.", "anchors": ["src/bibleref/ref.py:BibleRange.__init__"]}
{"id": "C13", "title": "Ranges built from book, chapter and verse numbers", "statement": "BibleRange(start_book, start_chap, start_verse, end_book, end_chap, end_verse) with trailing or intermediate parts omitted gives: missing start parts mean the first chapter/verse, missing end parts inherit from the start or mean the last chapter/verse of the given whole; whenever it succeeds, both endpoints exist, start <= end, the books differ only with MULTIBOOK in force; it raises only InvalidReferenceError, MultibookRangeNotAllowedError or ValueError.", "quantifier": "every well-formed data set and flags, every combination of present and absent arguments, all integers", "why_tests_cant": "64 presence patterns times all integers; tests try some of each.", "anchors": ["src/bibleref/ref.py:BibleRange.__init__"]}
{"id": "C14", "title": "Iterating over a range visits every verse in it once, in order", "statement": "list(range) is exactly the list of all verses allowed by the flags that lie between start and end inclusive, in reading order, without repetitions.", "quantifier": "every well-formed data set and global flags, all ranges", "why_tests_cant": "Number of ranges is quadratic in number of verses; iteration crosses chapter and book boundaries.", "anchors": ["src/bibleref/ref.py:BibleRange.__iter__", "src/bibleref/ref.py:BibleVerse.add"]}
{"id": "C15", "title": "verse_count is the number of verses in the range", "statement": "range.verse_count() equals the number of verses allowed by the flags lying between start and end inclusive, and equals the number of verses iteration yields.", "quantifier": "every well-formed data set and global flags, all ranges", "why_tests_cant": "Arithmetic over three nested levels (verses, chapters, books) for all pairs of endpoints.", "anchors": ["src/bibleref/ref.py:BibleRange.verse_count", "src/bibleref/ref.py:BibleBook.verse_count"]}
{"id": "C16", "title": "chap_count and book_count count touched or whole chapters and books", "statement": "chap_count() is the number of chapters with at least one verse in the range and chap_count(whole=True) the number of chapters lying entirely in the range; likewise book_count for books.", "quantifier": "every well-formed data set and global flags, all ranges", "why_tests_cant": "Same: quadratic number of ranges and arbitrary data.", "anchors": ["src/bibleref/ref.py:BibleRange.chap_count", "src/bibleref/ref.py:BibleRange.book_count"]}
{"id": "C17", "title": "spans_* and is_whole_* mean what they say", "statement": "spans_start_chap/spans_end_chap/spans_start_book/spans_end_book hold exactly when the whole chapter/book of the start/end verse lies in the range, is_whole_chap/is_whole_book exactly when the range is precisely one chapter/book, is_single_verse exactly when it contains one verse.", "quantifier": "every well-formed data set and flags, all ranges of the universe", "why_tests_cant": "All ranges; flags decide where a chapter starts.", "anchors": ["src/bibleref/ref.py:BibleRange.spans_start_chap", "src/bibleref/ref.py:BibleRange.spans_end_chap", "src/bibleref/ref.py:BibleRange.is_whole_chap", "src/bibleref/ref.py:BibleRange.is_whole_book"]}
{"id": "C18", "title": "Enclosing chapter and book ranges are tight", "statement": "range.chap_range() is the smallest range made of whole chapters containing the range, range.book_range() the smallest one made of whole books; verse.chap_range()/book_range() likewise. Both are idempotent.", "quantifier": "every well-formed data set and flags, all ranges and verses", "why_tests_cant": "All ranges and flag combinations.", "anchors": ["src/bibleref/ref.py:BibleRange.chap_range", "src/bibleref/ref.py:BibleRange.book_range", "src/bibleref/ref.py:BibleVerse.chap_range", "src/bibleref/ref.py:BibleVerse.book_range"]}
{"id": "C19", "title": "Splitting a range partitions it", "statement": "range.split(by_book, by_chap, num_verses=n) for n >= 1 terminates and returns non-empty ranges, in order, each starting right after the previous one ends, whose concatenation is exactly the given range; by_book pieces lie in one book, by_chap pieces in one chapter, num_verses pieces hold at most n verses; and no two neighbouring pieces could be joined without violating that.", "quantifier": "every well-formed data set and flags, all ranges, all option combinations, every n", "why_tests_cant": "Loop over ranges of unbounded length with every n; a wrong boundary only shows for particular alignments.", "anchors": ["src/bibleref/ref.py:BibleRange.split"]}
{"id": "C20", "title": "contains, surrounds and is_disjoint of ranges", "statement": "a.contains(b) holds exactly when every verse of b is in a; a.surrounds(b) exactly when b lies in a and touches neither end of a; a.is_disjoint(b) exactly when no verse is in both; contains is a partial order, is_disjoint is symmetric.", "quantifier": "every well-formed data set, all pairs of ranges and verses", "why_tests_cant": "All pairs of ranges: fourth power of number of verses.", "anchors": ["src/bibleref/ref.py:BibleRange.contains", "src/bibleref/ref.py:BibleRange.surrounds", "src/bibleref/ref.py:BibleRange.is_disjoint"]}
{"id": "C21", "title": "Adjacent ranges have nothing between them", "statement": "a.is_adjacent(b) holds exactly when a and b share no verse and no verse allowed by the flags lies between them (and, without MULTIBOOK, they meet inside one book); it is symmetric and never raises.", "quantifier": "every well-formed data set and flags, all pairs of ranges of the universe", "why_tests_cant": "All pairs of ranges and flag combinations.", "anchors": ["src/bibleref/ref.py:BibleRange.is_adjacent"]}
{"id": "C22", "title": "Union of two ranges", "statement": "a.union(b) is a list of at most two ranges covering exactly the verses in a or b; it is a single range when they overlap or are adjacent, and both in reading order otherwise.", "quantifier": "every well-formed data set and flags, all pairs of ranges for which MULTIBOOK is in force or which lie in single books", "why_tests_cant": "All pairs of ranges.", "anchors": ["src/bibleref/ref.py:BibleRange.union"]}
{"id": "C23", "title": "Intersection of two ranges", "statement": "a.intersection(b) is empty when a and b are disjoint, otherwise a single range covering exactly the verses in both; it is commutative.", "quantifier": "every well-formed data set and flags, all pairs of ranges allowed by the flags in force", "why_tests_cant": "All pairs of ranges.", "anchors": ["src/bibleref/ref.py:BibleRange.intersection"]}
{"id": "C24", "title": "Difference of two ranges", "statement": "a.difference(b) is a list of at most two ranges, in order, covering exactly the verses in a that are not in b; it does not raise for ranges that exist under the flags in force.", "quantifier": "every well-formed data set and flags, all pairs of ranges allowed by the flags in force", "why_tests_cant": "Boundary cases (first/last verse of a book, of the Bible, verse 0) times all pairs; tests miss those boundaries.", "anchors": ["src/bibleref/ref.py:BibleRange.difference"]}
{"id": "C25", "title": "Symmetric difference of two ranges", "statement": "a.sym_difference(b) covers exactly the verses in exactly one of a and b, and is commutative.", "quantifier": "every well-formed data set and flags, all pairs of ranges allowed by the flags in force", "why_tests_cant": "All pairs of ranges.", "anchors": ["src/bibleref/ref.py:BibleRange.sym_difference"]}
{"id": "C26", "title": "merge gives the canonical form of a list", "statement": "After lst.merge() the list covers exactly the same verses as before, is in reading order, its ranges are pairwise disjoint and non-adjacent, so it is the shortest list with that content; merging twice changes nothing more; two lists covering the same verses become equal.", "quantifier": "every well-formed data set and flags, lists of any length in any order and grouping, with overlaps and duplicates, of ranges allowed by the flags in force", "why_tests_cant": "Lists of unbounded length and all interleavings of overlaps.", "anchors": ["src/bibleref/ref.py:BibleRangeList.merge"]}
{"id": "C27", "title": "Union of lists", "statement": "a.union(b) covers exactly the verses covered by a or b, in canonical form, leaving a and b unchanged; hence it is commutative, associative and idempotent.", "quantifier": "every well-formed data set and flags, all pairs of lists of any length of ranges allowed by the flags in force", "why_tests_cant": "Lists of unbounded length.", "anchors": ["src/bibleref/ref.py:BibleRangeList.union", "src/bibleref/ref.py:BibleRangeList.union_update"]}
{"id": "C28", "title": "Intersection of lists", "statement": "a.intersection(b) covers exactly the verses covered by both a and b, in canonical form.", "quantifier": "every well-formed data set and flags, all pairs of lists of any length of ranges allowed by the flags in force", "why_tests_cant": "Nested loop over two lists of unbounded length followed by a merge.", "anchors": ["src/bibleref/ref.py:BibleRangeList.intersection", "src/bibleref/ref.py:BibleRangeList.intersection_update"]}
{"id": "C29", "title": "Difference of lists", "statement": "a.difference(b) covers exactly the verses covered by a and not by b.", "quantifier": "every well-formed data set and flags, all pairs of lists of any length of ranges allowed by the flags in force", "why_tests_cant": "Nested loop with in-place list surgery over lists of unbounded length.", "anchors": ["src/bibleref/ref.py:BibleRangeList.difference", "src/bibleref/ref.py:BibleRangeList.difference_update"]}
{"id": "C30", "title": "Symmetric difference of lists", "statement": "a.sym_difference(b) covers exactly the verses covered by exactly one of a and b.", "quantifier": "every well-formed data set and flags, all pairs of lists of any length of ranges allowed by the flags in force", "why_tests_cant": "Composite of four loops on unbounded lists.", "anchors": ["src/bibleref/ref.py:BibleRangeList.sym_difference", "src/bibleref/ref.py:BibleRangeList.sym_difference_update"]}
{"id": "C31", "title": "Membership and disjointness of lists", "statement": "lst.contains(x) for a verse, range or list x allowed by the flags holds exactly when every verse of x is covered by lst, whatever the order and overlaps of lst's ranges; lst.is_disjoint(x) holds exactly when no verse is covered by both.", "quantifier": "every well-formed data set, all lists of any length and all verses, ranges and lists x", "why_tests_cant": "Lists of unbounded length.", "anchors": ["src/bibleref/ref.py:BibleRangeList.contains", "src/bibleref/ref.py:BibleRangeList.is_disjoint"]}
{"id": "C32", "title": "Enclosing range of a list", "statement": "lst.range() is the smallest range containing every range in the list; chap_range()/book_range() the smallest whole-chapter/whole-book one.", "quantifier": "every well-formed data set and flags, all non-empty lists", "why_tests_cant": "Lists of unbounded length with nesting.", "anchors": ["src/bibleref/ref.py:BibleRangeList.range", "src/bibleref/ref.py:BibleRangeList.chap_range", "src/bibleref/ref.py:BibleRangeList.book_range"]}
{"id": "C33", "title": "List counts are sums over the ranges", "statement": "lst.verse_count(), chap_count() and book_count() are the sums of the ranges' counts; on a merged list verse_count is the number of distinct verses covered.", "quantifier": "every well-formed data set, all lists of any length", "why_tests_cant": "Lists of unbounded length.", "anchors": ["src/bibleref/ref.py:BibleRangeList.verse_count", "src/bibleref/ref.py:BibleRangeList.chap_count", "src/bibleref/ref.py:BibleRangeList.book_count"]}
{"id": "C34", "title": "A grouped list is a sequence of non-empty groups, whatever is done to it", "statement": "Under any sequence of list operations (append, prepend, extend, append_group, insert, insert_group_at, pop, remove, del, item assignment, clear, clear_groups, reverse, sort) the list behaves like a plain sequence of non-empty groups: iterating forwards, iterating backwards, iterating group by group, len and the number of groups always agree, and each operation changes that sequence as documented.", "quantifier": "all element types, all finite sequences of operations with all arguments", "why_tests_cant": "Pointer surgery: histories are unbounded and corrupt links show up only in later operations.", "anchors": ["src/bibleref/util.py:GroupedList", "src/bibleref/util.py:GroupedList._insert_before", "src/bibleref/util.py:GroupedList._insert_after", "src/bibleref/util.py:GroupedList._insert_new_group_at_node", "src/bibleref/util.py:GroupedList._insert_new_group_before_head", "src/bibleref/util.py:GroupedList._pop_node"]}
{"id": "C35", "title": "Sorting is a stable, ordered rearrangement", "statement": "sort() leaves a single group holding the same elements with the same multiplicities in ascending order, keeping equal elements in their previous order, and leaves a well-formed list; it does so for lists of every length.", "quantifier": "all element types with a total preorder, lists of any length and grouping", "why_tests_cant": "Hand-written linked-list merge sort on lists of unbounded length.", "anchors": ["src/bibleref/util.py:GroupedList.sort", "src/bibleref/util.py:GroupedList._merge_sort", "src/bibleref/util.py:GroupedList._split", "src/bibleref/util.py:GroupedList._merge_sublists"]}
{"id": "C36", "title": "Starting a group at a position", "statement": "insert_group_at(i) makes a new group begin at position i, leaves the elements and all other group boundaries alone, and does nothing if a group already begins there.", "quantifier": "all lists and positions", "why_tests_cant": "All positions and groupings; the harm appears only in later group iteration.", "anchors": ["src/bibleref/util.py:GroupedList.insert_group_at", "src/bibleref/util.py:GroupedList._insert_new_group_at_node"]}
{"id": "C37", "title": "Positions: indexing, popping and searching", "statement": "lst[i] for -len <= i < len is the element a plain Python list would give, index(x) is the least position holding x and raises ValueError when there is none, count(x) counts occurrences, x in lst agrees with them, pop(i) returns lst[i] and removes just that element; any other index raises IndexError.", "quantifier": "all lists, all integers i, all x", "why_tests_cant": "All integers, including far out of range ones, and all list lengths.", "anchors": ["src/bibleref/util.py:GroupedList.__getitem__", "src/bibleref/util.py:GroupedList.pop", "src/bibleref/util.py:GroupedList.index", "src/bibleref/util.py:GroupedList.count", "src/bibleref/util.py:GroupedList._conform_index"]}
{"id": "C38", "title": "Group views", "statement": "A group view has the length and the elements of its group, in order, and reads, assigns and deletes elements of that group only; once its group no longer begins at the element where the view was taken, every use of the view raises GroupViewError.", "quantifier": "all lists, all groups, all histories between taking and using the view", "why_tests_cant": "Stale views depend on unbounded interleavings of operations.", "anchors": ["src/bibleref/util.py:GroupedList.GroupView", "src/bibleref/util.py:GroupedList.GroupViews"]}
{"id": "C39", "title": "Grouped list equality", "statement": "a == b and a.equals(b) hold exactly when both have the same sequence of groups, a.equals(b, compare_groups=False) exactly when they have the same elements in the same order; both are equivalence relations.", "quantifier": "all pairs of lists", "why_tests_cant": "Unbounded lists.", "anchors": ["src/bibleref/util.py:GroupedList.equals", "src/bibleref/util.py:GroupedList.__eq__"]}
{"id": "C40", "title": "Every verse round-trips through its string", "statement": "For every existing verse, in full or abbreviated form, with either verse separator and with or without spaces, parsing its string gives back exactly that verse (as a single-verse range in a one-element list).", "quantifier": "every verse of the universe of the flags, every string option", "why_tests_cant": "31,000 verses times options times any chapter/verse configuration.", "anchors": ["src/bibleref/ref.py:BibleVerse.str", "src/bibleref/parser.py:_parse"]}
{"id": "C41", "title": "Every range round-trips through its string", "statement": "For every range, parsing its string gives back exactly that range, for each string option.", "quantifier": "every range of the universe of the flags, every string option", "why_tests_cant": "About 10^9 ranges; formatting has many cases (whole book, whole chapter, single-chapter books, cross-chapter, cross-book).", "anchors": ["src/bibleref/ref.py:BibleRange.str", "src/bibleref/parser.py:_parse", "src/bibleref/parser.py:_BibleRefTransformer"]}
{"id": "C42", "title": "Every list round-trips through its string", "statement": "Parsing lst.str(preserve_groups=True) gives back a list with the same ranges in the same groups; parsing lst.str(preserve_groups=False) gives back the same ranges in the same order.", "quantifier": "all non-empty lists of any length and grouping, every string option", "why_tests_cant": "The formatter and parser are two state machines that must stay in step over lists of unbounded length.", "anchors": ["src/bibleref/ref.py:BibleRangeList.str", "src/bibleref/parser.py:_parse", "src/bibleref/parser.py:_BibleRefTransformer"]}
{"id": "C43", "title": "regroup and automatic grouping agree", "statement": "regroup() keeps the ranges and their order, is idempotent, and afterwards str(preserve_groups=True) is the same string as str(preserve_groups=False).", "quantifier": "all lists, all grouping, every string option", "why_tests_cant": "Two independently written state machines on unbounded lists.", "anchors": ["src/bibleref/ref.py:BibleRangeList.regroup", "src/bibleref/ref.py:BibleRangeList.str"]}
{"id": "C44", "title": "Parsing does not depend on what was parsed before", "statement": "Parsing the same string with the same flags gives the same result whatever was parsed before.", "quantifier": "all strings, all histories of earlier successful or failing parses", "why_tests_cant": "Hidden state in a module-level object: depends on unbounded histories.", "anchors": ["src/bibleref/parser.py:_BibleRefTransformer", "src/bibleref/parser.py:_parse"]}
{"id": "C45", "title": "Parsed references exist", "statement": "Whenever parsing a string succeeds, the result is non-empty, and every range in it has existing endpoints in order, crossing books only when MULTIBOOK is in force; otherwise it raises one of the documented errors.", "quantifier": "all strings over the alphabet, all flags, data and parser histories", "why_tests_cant": "All strings.", "anchors": ["src/bibleref/parser.py:_parse", "src/bibleref/parser.py:_BibleRefTransformer", "src/bibleref/ref.py:BibleRangeList.__init__"]}
{"id": "C46", "title": "Book names are recognised and never ambiguous", "statement": "Every book's title and abbreviation, in any letter case and with any amount of white space where white space is allowed, is recognised as that book and only that book; no string is a valid name of two books.", "quantifier": "all strings, all books, default name data", "why_tests_cant": "All strings; regex overlaps between 66 patterns.", "anchors": ["src/bibleref/ref.py:BibleBook.from_str", "src/bibleref/data.py:BibleData.name_data", "src/bibleref/data.py:default_name_data"]}
{"id": "C47", "title": "Flags given to a call take precedence", "statement": "An explicitly passed flags argument decides the behaviour of a call, whatever the global flags are; only when it is omitted are the global flags used.", "quantifier": "all calls taking flags, all flag values", "why_tests_cant": "Combination of every call with every pair of flag values.", "anchors": ["src/bibleref/ref.py:BibleFlag", "src/bibleref/ref.py:BibleVerse.__init__", "src/bibleref/ref.py:BibleRange.__init__"]}
{"id": "C48", "title": "Changing the book order", "statement": "Assigning a book order without repetitions makes each listed book's order its position and books not listed None; an order with repetitions is refused with an error.", "quantifier": "all lists of books", "why_tests_cant": "All sequences of books.", "anchors": ["src/bibleref/data.py:BibleData.book_order"]}
{"id": "C49", "title": "In-place operators update their left operand", "statement": "After a |= b (likewise &=, -=, ^=) the variable a holds the list that a.union(b) etc. would have returned.", "quantifier": "all pairs of lists", "why_tests_cant": "All pairs of lists.", "anchors": ["src/bibleref/ref.py:BibleRangeList.__ior__", "src/bibleref/ref.py:BibleRangeList.__iand__", "src/bibleref/ref.py:BibleRangeList.__isub__", "src/bibleref/ref.py:BibleRangeList.__ixor__"]}
{"id": "C50", "title": "List operations terminate when an operand is the list itself", "statement": "extend, union_update, intersection_update, difference_update and their operators terminate for every pair of lists, including when both operands are the same object.", "quantifier": "all lists, including aliased operands", "why_tests_cant": "Non-termination cannot be observed by a passing test.", "anchors": ["src/bibleref/util.py:GroupedList.extend", "src/bibleref/ref.py:BibleRangeList.union_update"]}
{"id": "C51", "title": "Copying a list", "statement": "BibleRangeList built from another list's ranges, and the results of the non-updating operations, never alias: operating on the result never changes the operands, and a list built from nested ranges has those ranges in those groups.", "quantifier": "all lists and operations", "why_tests_cant": "All histories after the copy.", "anchors": ["src/bibleref/ref.py:BibleRangeList.__init__", "src/bibleref/util.py:GroupedList.__init__"]}
{"id": "C52", "title": "Ranges compared and combined with lists", "statement": "is_disjoint, is_adjacent, contains, surrounds, union, intersection, difference and sym_difference of a range with a list as argument mean the same as for the set of verses the list covers, and do not raise for ranges allowed by the flags in force.", "quantifier": "every well-formed data set and flags, all ranges and all lists of any length", "why_tests_cant": "Lists of unbounded length; the list branches of these methods are untested.", "anchors": ["src/bibleref/ref.py:BibleRange.is_adjacent", "src/bibleref/ref.py:BibleRange.contains", "src/bibleref/ref.py:BibleRange.union", "src/bibleref/ref.py:BibleRange.difference", "src/bibleref/ref.py:BibleRange.sym_difference"]}
{"id": "C53", "title": "The grammar of references is unambiguous", "statement": "A string has at most one reading as a list of references; the parser finds that reading exactly when the documented grammar (single and dual references, list separators, optional white space between tokens, greedy names and numbers) has one, and refuses all other strings without remembering anything of them.", "quantifier": "all strings, all data whose separators can be told apart from names, numbers, white space and each other", "why_tests_cant": "All strings; ambiguity of a context-free grammar with overlapping terminals cannot be settled by examples.", "anchors": ["src/bibleref/parser.py:_parser", "src/bibleref/parser.py:_parse"]}
{"id": "C54", "title": "Chapter and verse numbers of a book", "statement": "The chapters of a book are exactly the numbers from min_chap_num to max_chap_num, and chap_count is how many there are; the verses of an existing chapter under the flags in force are exactly the numbers from min_verse_num to max_verse_num; verse_count is the number of all verses of the book; for a chapter that does not exist the verse-number methods raise InvalidReferenceError.", "quantifier": "every well-formed data set and flags, all books, all integers as chapter numbers", "why_tests_cant": "All data sets, books and integers.", "anchors": ["src/bibleref/ref.py:BibleBook.min_verse_num", "src/bibleref/ref.py:BibleBook.max_verse_num", "src/bibleref/ref.py:BibleBook.verse_count", "src/bibleref/ref.py:BibleBook.chap_count"]}
{"id": "C55", "title": "Range separators appear only where two references are needed", "statement": "The string of a range or a list contains the range separator exactly once for each range that is not a single verse, a whole chapter or a whole book.", "quantifier": "every well-formed data set, flags, string options, all ranges and all lists of any length", "why_tests_cant": "The string of a range in a list depends on all ranges before it.", "anchors": ["src/bibleref/ref.py:BibleRange.str", "src/bibleref/ref.py:BibleRangeList.str"]}
{"id": "C56", "title": "A list of one range is shown as the range is", "statement": "For every range and all string options, the string of the list that contains just that range is the string of the range.", "quantifier": "every well-formed data set, flags, string options and range", "why_tests_cant": "Two separate implementations have to agree on all ranges and options.", "anchors": ["src/bibleref/ref.py:BibleRange.str", "src/bibleref/ref.py:BibleRangeList.str"]}
{"id": "C57", "title": "Strings of what was read are a normal form", "statement": "If a string can be read as a verse, a range or a list, then the string of the result can be read again, gives the same result, and therefore the same string.", "quantifier": "all strings, all flags and string options", "why_tests_cant": "All strings.", "anchors": ["src/bibleref/ref.py:BibleVerse.str", "src/bibleref/ref.py:BibleRange.str", "src/bibleref/ref.py:BibleRangeList.str", "src/bibleref/parser.py:_parse"]}
{"id": "C58", "title": "Programs cannot damage lists of ranges", "statement": "Under any sequence of calls on any number of BibleRangeList objects (basic list operations, regroup, sort, merge, verse 0/1 conversions, contains, union, intersection, difference, symmetric difference and their updating forms), with operands that may be the same object, with calls that raise exceptions and with settings changed in between, every list can afterwards be iterated forwards, backwards and group by group with the same content, its length and number of groups agree with that content, and no group is empty.", "quantifier": "all finite sequences of calls, all data sets and flags at each call, all lists of any length", "why_tests_cant": "All programs; damage would show only after particular sequences of calls, in particular after exceptions in the middle of an update.", "anchors": ["src/bibleref/ref.py:BibleRangeList.merge", "src/bibleref/ref.py:BibleRangeList.regroup", "src/bibleref/ref.py:BibleRangeList.difference_update", "src/bibleref/util.py:GroupedList.sort", "src/bibleref/util.py:GroupedList._pop_node"]}
{"id": "C59", "title": "The chapters of a book as ranges", "statement": "chap_ranges returns one range for every chapter of the book, in order, each with exactly the verses of its chapter and equal to what chap_range returns for it; with regrouping every chapter is a group of its own, without it all are in one group.", "quantifier": "every well-formed data set, global flags, flags of the call and book, any number of chapters", "why_tests_cant": "All data sets and all placements of verse 0s, for both sources of flags.", "anchors": ["src/bibleref/ref.py:BibleBook.chap_ranges", "src/bibleref/ref.py:BibleRange.split"]}
{"id": "C60", "title": "Operands of every type", "statement": "Every method and operator of a range or list that takes a Bible reference accepts a verse, a range or a list, and treats a verse like the range of that verse; everything else is refused with ValueError (TypeError for adding to or subtracting from a verse), before anything is changed.", "quantifier": "every well-formed data set, flags, all ranges and lists, all values of any type", "why_tests_cant": "All types of operands for all methods; each method has its own type tests.", "anchors": ["src/bibleref/ref.py:BibleRange.contains", "src/bibleref/ref.py:BibleRange.union", "src/bibleref/ref.py:BibleRangeList.contains", "src/bibleref/ref.py:BibleRangeList.is_disjoint", "src/bibleref/ref.py:BibleRangeList.union_update"]}
{"id": "C61", "title": "Constructors accept only what they should", "statement": "Whatever is passed to BibleVerse, BibleRange or BibleRangeList, either one of the documented exceptions is raised or the object made is a proper one: a verse that exists, a range of existing verses in reading order, a list of ranges without empty groups. Names count like the books they denote, omitted arguments like None, lists and tuples make groups. Arguments of incorrect number or type raise ValueError (TypeError for lists).", "quantifier": "every well-formed data set, flags, argument lists of any length with values of any type", "why_tests_cant": "All combinations of argument types, unbounded argument lists.", "anchors": ["src/bibleref/ref.py:BibleVerse.__init__", "src/bibleref/ref.py:BibleRange.__init__", "src/bibleref/ref.py:BibleRangeList.__init__", "src/bibleref/util.py:GroupedList.__init__"]}
{"id": "C62", "title": "Assigning to the Bible data", "statement": "After any sequence of assignments to the attributes of bible_data(), with references parsed in between and assignments that raised exceptions, the attributes, the books (order, abbreviation, title, recognised names, chapter tables) and the parser all agree with what was last assigned to each attribute; an assignment changes nothing but what it is meant to change, and one that raises an exception changes nothing.", "quantifier": "all finite sequences of assignments and parses, all values of the documented types", "why_tests_cant": "All histories; the data is kept in several places (the data object, the books, the parser) that have to agree.", "anchors": ["src/bibleref/data.py:BibleData.book_order", "src/bibleref/data.py:BibleData.name_data", "src/bibleref/data.py:BibleData.max_verses", "src/bibleref/data.py:BibleData.verse_0s", "src/bibleref/parser.py:_recreate_parser"]}
{"id": "C63", "title": "Where a reference string is wrong", "statement": "The start_pos and end_pos of a BibleRefParsingError delimit a non-empty part of the string, which is just what is wrong. Where the string does not fit the grammar it is the first character that cannot be there: the text before it is the beginning of a reference, with this character it is not. Where the string fits, it is an unknown name, or a single reference that does not exist, or two references that are no range, and all the text before it can be read.", "quantifier": "all strings of any length, all data with plain separators, all flags and states of the parser", "why_tests_cant": "All strings; positions are easily off by one after white space, separators and multi-character names.", "anchors": ["src/bibleref/ref.py:BibleRefParsingError", "src/bibleref/parser.py:_parse", "src/bibleref/parser.py:_meta_info_to_pos"]}
{"id": "C64", "title": "What separators and bare numbers mean", "statement": "A string that begins with a book's name means what README.md says. A reference without a book is in the book named last. A number after a book's name is a chapter, or a verse if the book has one chapter. A bare number after chapter:verse is a verse of that chapter; after another bare number, a minor list separator or a range separator it is of the same kind as the number before; after a major list separator or a book it is a chapter. Major list separators, and only they, begin new groups. Chapters and books are the ranges of all their verses, and two references with a range separator between them are the smallest range that contains both. If some reference does not exist, BibleRefParsingError is raised.", "quantifier": "every well-formed data set, flags, all strings with any number of references, any history of earlier parses", "why_tests_cant": "All combinations of forms of references and separators; the meaning of a number depends on text arbitrarily far before it.", "anchors": ["src/bibleref/parser.py:_BibleRefTransformer", "src/bibleref/ref.py:BibleRangeList.__init__"]}
{"id": "C65", "title": "Books left out of the book order", "statement": "A book that is not in book_order has no next and no previous book. References to it can be made and used like any others: everything done with its verses, ranges of its verses, and reference strings that name it is as if it were the only book in the order. Only in combination with verses of other books, with which it cannot be compared, is it refused (MultibookRangeNotAllowedError without MULTIBOOK, else TypeError).", "quantifier": "every well-formed data set, book order that lacks the book, flags, all verses and ranges of the book, all strings", "why_tests_cant": "All data sets and orders; every method compares verses or looks for the next book in its own way.", "anchors": ["src/bibleref/ref.py:BibleBook.next", "src/bibleref/ref.py:BibleBook.prev", "src/bibleref/ref.py:BibleRange.__init__", "src/bibleref/ref.py:BibleVerse.add", "src/bibleref/data.py:BibleData.book_order"]}
{"id": "C66", "title": "Changing a list while looping over it", "statement": "A loop over a list, forwards or with reversed(), whose body changes the list goes on with the element after the current one in the changed list, or with the one that followed it if the current one has been removed. So removing the elements that meet a condition reaches all of them, replacing elements is safe, and appended elements are reached too. A loop over the groups of a list goes on with the group after the current one in the changed list, and a loop over one group with the next element of that group. Other lists are not affected. Removed elements are not yielded.", "quantifier": "all lists reachable by any calls, all bodies that choose one call per iteration in any way", "why_tests_cant": "All lists, bodies and interleavings; mistakes show only for particular positions of the current element relative to a change.", "anchors": ["src/bibleref/util.py:GroupedList.__iter__", "src/bibleref/util.py:GroupedList.__reversed__", "src/bibleref/util.py:GroupedList.GroupViews.__iter__", "src/bibleref/util.py:GroupedList.GroupView.__iter__", "src/bibleref/util.py:GroupedList._pop_node"]}
{"id": "C67", "title": "List methods given arguments of the wrong type", "statement": "A list of ranges never gets to contain anything but ranges. A method that is given an item that is not a BibleRange, an index that is not an integer, or an object that cannot be iterated over raises TypeError; a call that raises an exception, for this or any other reason, leaves all lists as they were. A list is equal to a list with the same ranges in the same groups and different from everything else.", "quantifier": "all reachable states of all lists, all methods, arguments of any type, iterables of any length", "why_tests_cant": "All types for all arguments of all methods, and all states; a wrong item may come after any number of right ones.", "anchors": ["src/bibleref/ref.py:BibleRangeList._check_type", "src/bibleref/util.py:GroupedList.append", "src/bibleref/util.py:GroupedList.extend", "src/bibleref/util.py:GroupedList.insert", "src/bibleref/util.py:GroupedList.__setitem__", "src/bibleref/util.py:GroupedList.equals"]}
{"id": "C68", "title": "What repr shows identifies the reference", "statement": "repr of a verse, range or list shows, between the class name with its bracket and the closing bracket, a string from which the same constructor makes an equal object, for lists with the same groups. Two references have the same repr only if they are of the same kind and equal.", "quantifier": "every well-formed data set with recognisable names, global flags, all verses, ranges and lists of any length the flags allow, any history of earlier parses", "why_tests_cant": "All pairs of references; two that look alike could be anywhere.", "anchors": ["src/bibleref/ref.py:BibleVerse.__repr__", "src/bibleref/ref.py:BibleRange.__repr__", "src/bibleref/ref.py:BibleRangeList.__repr__"]}
{"id": "C69", "title": "Strings show exactly the parts asked for", "statement": "For every combination of verse_parts and options, the strings of two verses are the same if and only if the verses agree in the parts asked for, where the chapter of a book with one chapter is never shown. With nospace the strings of verses, ranges and lists contain no blank, otherwise they neither begin nor end with white space.", "quantifier": "every well-formed data set with distinct names, all verses, parts and options; for the second part all data, flags, ranges and lists", "why_tests_cant": "All pairs of verses, and ranges and lists of any length.", "anchors": ["src/bibleref/ref.py:BibleVerse.str", "src/bibleref/ref.py:BibleRange.str", "src/bibleref/ref.py:BibleRangeList.str"]}
{"id": "C70", "title": "Set operations obey the laws of sets", "statement": "Unions, intersections, containment, disjointness and verse counts of lists of ranges fit together. Union with the empty list is the merged list, intersection with it is empty; a | (a & b) and a & (a | b) are a merged; union distributes over intersection as intersection over union. A list contains another just if their union is the first merged, just if their intersection is the second merged; contains is reflexive and transitive, and lists that contain each other have the same merged form. Lists are disjoint just if their intersection is empty. The verse counts of union and intersection add up to those of the two merged lists; the intersection has no verses just if the lists are disjoint, and the union as many as the first list just if it contains the second.", "quantifier": "every well-formed data set, global flags and flags in force, all lists of allowed ranges of any length and grouping", "why_tests_cant": "All triples of lists; each law relates results of several methods that are computed in different ways.", "anchors": ["src/bibleref/ref.py:BibleRangeList.union", "src/bibleref/ref.py:BibleRangeList.intersection", "src/bibleref/ref.py:BibleRangeList.contains", "src/bibleref/ref.py:BibleRangeList.is_disjoint", "src/bibleref/ref.py:BibleRangeList.merge", "src/bibleref/ref.py:BibleRangeList.verse_count"]}
{"id": "C71", "title": "Iterators keep their place when lists are changed between their steps", "statement": "Any number of iterators from iter(list), reversed(list), iter(group) and iter(list.groups) can be advanced with next() in any order, with any calls on any lists in between. An iterator goes on with the element that follows the one it is at in the list as it then is, wherever insertions, removals, sorting or reversing have moved it; an iterator over a group ends where another group begins, and one over the groups goes on with the next group and gives views of them that can be iterated over in turn. It gives only elements that are in the list at that time. Iterators over lists that are not changed do not disturb each other: each gives exactly its elements in order and then StopIteration.", "quantifier": "all programs of calls on any number of lists and of iter, reversed and next on any number of iterators, in any order", "why_tests_cant": "All interleavings; a mistake shows only for particular positions of several iterators relative to several changes.", "anchors": ["src/bibleref/util.py:GroupedList.__iter__", "src/bibleref/util.py:GroupedList.__reversed__", "src/bibleref/util.py:GroupedList.GroupView.__iter__", "src/bibleref/util.py:GroupedList.GroupViews.__iter__", "src/bibleref/util.py:GroupedList._pop_node", "src/bibleref/util.py:GroupedList.sort"]}
{"id": "C72", "title": "Groups of merged lists do not depend on flags", "statement": "The lists given by merge, union, intersection, difference, symmetric difference, union_update and difference_update are divided into groups in one way, whatever flags are passed or set globally: neighbouring ranges are in one group if and only if the second lies wholly in the chapter in which the first ends. So merged lists with the same ranges are equal, groups included, however they were obtained.", "quantifier": "every well-formed data set, global flags and flags passed, all lists of existing ranges of any length and grouping, all calls that return", "why_tests_cant": "All lists and pairs of flags; the grouping looks at whole chapters and books under the global flags while the ranges were merged under others.", "anchors": ["src/bibleref/ref.py:BibleRangeList.merge", "src/bibleref/ref.py:BibleRangeList.regroup", "src/bibleref/ref.py:BibleRangeList.difference_update", "src/bibleref/ref.py:BibleRangeList.intersection"]}
{"id": "C73", "title": "Ways of writing the same reference", "statement": "Strings that differ only in letter case, in which of the two verse separators they use, in the amount of white space between words, and in whether there is white space at the beginning, at the end and beside separators mean the same: making a verse, a range or a list from them gives the same result, or fails in both cases with the same kind of exception, and does not influence later parses differently.", "quantifier": "all strings of any length, all data with plain separators and ordinary names, all flags and states of the parser", "why_tests_cant": "All strings, references of all forms and names of all books; a token that swallows a blank, or a comparison that does not fold case, shows only in particular places.", "anchors": ["src/bibleref/parser.py:_recreate_parser", "src/bibleref/parser.py:_BibleRefTransformer", "src/bibleref/ref.py:BibleBook.from_str"]}
{"id": "C74", "title": "Allowing more takes nothing away", "statement": "Whatever can be made with some flags can be made with more. A verse, or a range of two verses, is the same. A range made of books and numbers, or a list or range made of a string, has the same groups of as many ranges; each is the same as before, or VERSE_0 has been added and it begins with a chapter's verse 0 instead of verse 1, so that it covers every verse it did before. A verse made of a string is the same. With MULTIBOOK added, the verses that add and subtract reached are still reached, and no range counts fewer verses.", "quantifier": "every well-formed data set, all pairs of global flags and flags passed of which one allows what the other allows, all arguments, strings, verses and steps", "why_tests_cant": "All pairs of flags, and strings of any length; each flag is looked at in many places and an added flag may select a different branch anywhere.", "anchors": ["src/bibleref/ref.py:BibleVerse.__init__", "src/bibleref/ref.py:BibleRange.__init__", "src/bibleref/ref.py:BibleRangeList.__init__", "src/bibleref/ref.py:BibleVerse.add", "src/bibleref/ref.py:BibleVerse.subtract", "src/bibleref/ref.py:BibleRange.verse_count", "src/bibleref/ref.py:BibleFlag"]}
{"id": "C75", "title": "References are read one after another", "statement": "A string with a list separator in it is read by reading what comes before the separator, and then, with the book and chapter learnt so far, what comes after. The result is one result followed by the other: as groups of their own after a major list separator, and with the two adjoining groups made one after a minor one. If either part is refused, so is the whole, with BibleRefParsingError. What comes after may be read on its own if it begins with a book's name, so that any number of such strings with major list separators between them give the groups of each in turn. A separator at the end changes nothing; two separators with nothing between them are refused.", "quantifier": "every well-formed data set with usual separators, all strings before and after a list separator, all flags, every state of the parser", "why_tests_cant": "All strings can be cut at any separator; the two parts share a parser whose state depends on every token before.", "anchors": ["src/bibleref/parser.py:_parse", "src/bibleref/parser.py:_BibleRefTransformer", "src/bibleref/ref.py:BibleRangeList.__init__"]}
{"id": "C76", "title": "The four comparisons agree", "statement": "For books, verses and ranges, a > b says what b < a says and a >= b what b <= a says, exceptions included. Of two books the one earlier in the book order is less, of two verses the one earlier in reading order. Ranges are compared by where they begin, and if they begin with the same verse by where they end. Of two ranges of existing verses exactly one is less, equal or greater, <= is < or ==, and < is transitive. Comparing references of different kinds, or lists of ranges, raises TypeError.", "quantifier": "every well-formed data set, all books, verses and ranges, values of any type that can be compared with them", "why_tests_cant": "The comparisons depend on the book order in force, and sorting relies on their agreeing for all pairs and triples of ranges.", "anchors": ["src/bibleref/ref.py:BibleBook.__lt__", "src/bibleref/ref.py:BibleBook.__le__", "src/bibleref/ref.py:BibleBook.__gt__", "src/bibleref/ref.py:BibleBook.__ge__", "src/bibleref/ref.py:BibleVerse", "src/bibleref/ref.py:BibleRange"]}
{"id": "C77", "title": "Verse counts add up", "statement": "The verse count of the union of two lists of ranges and that of their intersection add up to the verse counts of the two lists, merged. The lists are disjoint just if the union has as many verses as the two together; one contains the other just if the union has no more verses than it has; and if it contains the other and has no more verses, the merged lists are equal. The verse count of a difference and that of the intersection add up to that of the list taken from, and the verse counts of the pieces of a split range add up to that of the range.", "quantifier": "every well-formed data set, all lists of ranges allowed by the flags, all flags that agree with the global ones on verse 0s", "why_tests_cant": "Counting goes by arithmetic over chapters and books, the set operations by comparing ends; that they agree is a statement about all pairs of lists.", "anchors": ["src/bibleref/ref.py:BibleRangeList.verse_count", "src/bibleref/ref.py:BibleRangeList.union", "src/bibleref/ref.py:BibleRangeList.intersection", "src/bibleref/ref.py:BibleRangeList.difference", "src/bibleref/ref.py:BibleRangeList.is_disjoint", "src/bibleref/ref.py:BibleRangeList.contains", "src/bibleref/ref.py:BibleRange.split"]}
{"id": "C78", "title": "Merging undoes splitting", "statement": "Splitting a range by book, by chapter, by a number of verses, or by several of these, and merging the resulting list with the same flags gives the list of that range alone.", "quantifier": "every well-formed data set, all flags, all ranges they allow, all ways of splitting with a positive number of verses", "why_tests_cant": "Where a range is cut depends on the ends of chapters and books and on verse 0s; merging has to recognise every such cut as no gap.", "anchors": ["src/bibleref/ref.py:BibleRange.split", "src/bibleref/ref.py:BibleRangeList.merge"]}
{"id": "C79", "title": "Strings read in several threads", "statement": "When several threads read reference strings at the same time, each of them gets what it would get alone.", "quantifier": "all strings, any number of threads, all flags, every order in which the threads take their turns", "why_tests_cant": "All calls share one transformer object with the current book, chapter, level and flags. Which accesses of other threads fall between two of a thread's own depends on the scheduler; the number of orders is exponential and tests see only a few of them.", "anchors": ["src/bibleref/parser.py:_parse", "src/bibleref/parser.py:_transformer", "src/bibleref/parser.py:_BibleRefTransformer"]}
{"id": "C80", "title": "Iterating while the flags change", "statement": "A program makes any number of iterators over ranges, asks them for their next verses in any order and assigns to bibleref.flags in between. Every iterator gives exactly the verses that list(range) has, one after the other, then StopIteration each time it is asked again, and no exception is raised.", "quantifier": "all data, all ranges (over one or several books, beginning at a verse 0 or not), all programs of making, asking and assigning", "why_tests_cant": "An iterator is suspended between two verses and resumes under whatever flags are set then; tests iterate without a change of flags in between, or with a few, over a few ranges.", "anchors": ["src/bibleref/ref.py:BibleRange.__iter__", "src/bibleref/ref.py:BibleVerse.add"]}
{"id": "C81", "title": "Ranges over several books work without MULTIBOOK", "statement": "A range over several books that exists already, and a list of such ranges, behaves in the same way whether MULTIBOOK is set or not (documented at BibleFlag.MULTIBOOK): iteration, the counts, the questions whether it is or spans whole chapters or books, chap_range, book_range, verse_0_to_1, verse_1_to_0, split, the strings, and union, intersection, difference, merge and contains give the same result with and without the flag, globally or in the call.", "quantifier": "all data, all ranges of existing verses, all lists of them, all flags that agree on VERSE_0, all arguments", "why_tests_cant": "The flag is consulted wherever a method constructs an intermediate range; a test sees one range and one method, not every place where such a range may cross a book.", "anchors": ["src/bibleref/ref.py:BibleFlag.MULTIBOOK", "src/bibleref/ref.py:BibleRange.split", "src/bibleref/ref.py:BibleRange.union", "src/bibleref/ref.py:BibleRangeList.contains"]}
{"id": "C82", "title": "Steps and distances add up", "statement": "Going m verses on from a verse and then n verses leads to the same verse, or to the same None, as going m + n verses on, for add and for subtract with any flags. The verse that v + n (v - n) leads to is n verses away from v according to the difference of verses. The differences a - b, b - c and c - a of three verses add up to 0.", "quantifier": "all data, all flags, all existing verses, all numbers of steps", "why_tests_cant": "The law relates three calls, over all triples of verses and all numbers; it fails only where a chapter with a verse 0 lies on the way of one of them.", "anchors": ["src/bibleref/ref.py:BibleVerse.add", "src/bibleref/ref.py:BibleVerse.subtract"]}
{"id": "C83", "title": "Names and separators matter only to strings", "statement": "With the same book order, chapters and verses, every method that neither takes nor gives a string has the same result or raises the same exception whatever the names and separators of the Bible data are. The string of a verse depends only on the title (or abbreviation) of its book and the verse separator, that of a range on the names of its two books, the verse separator and the range separator, and that of a list on these and the list separators. Reading strings does not depend on abbreviations, so that an abbreviation is recognised only if it is also an extra abbreviation or a beginning of the title.", "quantifier": "all pairs of Bible data, all books, verses, ranges, lists, list objects, arguments, flags and options", "why_tests_cant": "A statement about all pairs of data sets and all arguments; tests run with the default data.", "anchors": ["src/bibleref/data.py:BibleData", "src/bibleref/ref.py:BibleVerse.str", "src/bibleref/ref.py:BibleRange.str", "src/bibleref/ref.py:BibleRangeList.str", "src/bibleref/ref.py:BibleBook.from_str"]}
{"id": "C84", "title": "Strings of groups identify the groups", "statement": "str and repr of a GroupedList, of its groups and of a group view show the reprs of the items in order, in Python's list notation, one bracket per group, and change nothing; a view that is no longer valid raises the same error as iterating over it. If the reprs of the items can be told apart before a comma or bracket, two lists have the same string, and the same string of their groups, exactly when they have the same groups. In particular str(a.groups) == str(b.groups) exactly when a == b for lists of Bible ranges with the default data.", "quantifier": "all item types, all lists after any history of list operations with sensible arguments (C34), all views in any state of the memory, all ranges the global flags allow", "why_tests_cant": "A test compares a few strings; that no two different groupings of any ranges share a string needs an argument about all of them.", "anchors": ["src/bibleref/util.py:GroupedList.GroupViews.__str__", "src/bibleref/util.py:GroupedList.GroupView.__str__", "src/bibleref/util.py:GroupedList.__str__", "src/bibleref/ref.py:BibleRange.__repr__"]}
{"id": "C85", "title": "Splitting in steps", "statement": "Splitting a range by book or chapter and then splitting each piece by book, chapter or number of verses gives the same ranges as asking for everything in one call of split. Splitting into pieces of k*n verses first makes no difference to splitting into pieces of n verses. A piece is not split further by the request that made it. Splitting by number first and by chapter afterwards is different from asking for both.", "quantifier": "all ranges whose verses exist under the flags in force, all combinations of by_book, by_chap, num_verses >= 1 and regroup in either step, all well-formed Bible data", "why_tests_cant": "The combinations of requests, ranges and data cannot be listed; the pieces of the second step depend on where those of the first happen to end.", "anchors": ["src/bibleref/ref.py:BibleRange.split"]}
{"id": "C86", "title": "The number and size of the pieces of a split", "statement": "split(by_chap=True) gives chap_count() ranges and split(by_book=True) gives book_count() ranges. split(num_verses=n) gives verse_count() / n ranges, rounded up; every one but the last has verse_count() n, and the last has between 1 and n.", "quantifier": "all existing ranges, all n >= 1, all global flags, all well-formed Bible data, with and without regroup", "why_tests_cant": "The sizes depend on every chapter boundary and verse 0 in the range; a test looks at a few ranges and a few n.", "anchors": ["src/bibleref/ref.py:BibleRange.split", "src/bibleref/ref.py:BibleRange.verse_count", "src/bibleref/ref.py:BibleRange.chap_count", "src/bibleref/ref.py:BibleRange.book_count"]}
{"id": "C87", "title": "Steps keep the order of verses", "statement": "If v < w and both v.add(n) and w.add(n) give verses, then v.add(n) < w.add(n), and the same for subtract(n); if w.add(n) gives a verse and MULTIBOOK is in force (or v and w are in one book), v.add(n) gives one too.", "quantifier": "all verses of all listed books, all n >= 0, all global and passed flags, all well-formed Bible data", "why_tests_cant": "The two walks cross different chapters, books and verse 0s; the failing combinations need a verse 0 given explicitly while VERSE_0 is off and a particular n.", "anchors": ["src/bibleref/ref.py:BibleVerse.add", "src/bibleref/ref.py:BibleVerse.subtract", "src/bibleref/ref.py:BibleVerse.__lt__"]}
{"id": "C88", "title": "Chapters and books follow one another without gaps", "statement": "The verse after last_verse of a chapter is first_verse of the next chapter, and the verse before that is the last_verse. The same holds for a book and the book after it if MULTIBOOK is in force; if it is not, add(1) and subtract(1) give None there. There is no verse after the last verse of the last book and none before the first verse of the first book.", "quantifier": "all listed books, all chapters, all book orders, all global and passed flags, all well-formed Bible data", "why_tests_cant": "There are over a thousand chapter boundaries for each Bible data set, and the verse 0s and the book order can be changed.", "anchors": ["src/bibleref/ref.py:BibleVerse.add", "src/bibleref/ref.py:BibleVerse.subtract", "src/bibleref/ref.py:BibleBook.first_verse", "src/bibleref/ref.py:BibleBook.last_verse", "src/bibleref/ref.py:BibleBook.next", "src/bibleref/ref.py:BibleBook.prev"]}

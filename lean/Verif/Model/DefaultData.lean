import Verif.Model.Book

/-!
# The default Bible data (`src/bibleref/data.py:205-450`)

Transcribed literally from the tables in `data.py`. Strings are lists of characters.
-/

namespace Bibleref
open BibleBook

/-- `default_book_order`, data.py:205-272. -/
def defaultBookOrder : List BibleBook :=
  [Gen, Exod, Lev, Num, Deut, Josh, Judg, Ruth, ISam, IISam, IKgs, IIKgs, IChr, IIChr, Ezra, Neh, Esth, Job, Psa,
   Prov, Eccl, Song, Isa, Jer, Lam, Ezek, Dan, Hos, Joel, Amos, Obad, Jonah, Mic, Nah, Hab, Zeph, Hag, Zech, Mal,
   Matt, Mark, Luke, John, Acts, Rom, ICor, IICor, Gal, Eph, Phil, Col, ITh, IITh, ITim, IITim, Titus, Phlm, Heb,
   Jam, IPet, IIPet, IJn, IIJn, IIIJn, Jude, Rev]

/-- `default_max_verses`, data.py:356-423. -/
def defaultMaxVerses : BibleBook → Option (List Int)
  | .Gen => some [31, 25, 24, 26, 32, 22, 24, 22, 29, 32, 32, 20, 18, 24, 21, 16, 27, 33, 38, 18, 34, 24, 20, 67, 34, 35, 46, 22,
      35, 43, 55, 32, 20, 31, 29, 43, 36, 30, 23, 23, 57, 38, 34, 34, 28, 34, 31, 22, 33, 26]
  | .Exod => some [22, 25, 22, 31, 23, 30, 25, 32, 35, 29, 10, 51, 22, 31, 27, 36, 16, 27, 25, 26, 36, 31, 33, 18, 40, 37, 21, 43,
      46, 38, 18, 35, 23, 35, 35, 38, 29, 31, 43, 38]
  | .Lev => some [17, 16, 17, 35, 19, 30, 38, 36, 24, 20, 47, 8, 59, 57, 33, 34, 16, 30, 37, 27, 24, 33, 44, 23, 55, 46, 34]
  | .Num => some [54, 34, 51, 49, 31, 27, 89, 26, 23, 36, 35, 16, 33, 45, 41, 50, 13, 32, 22, 29, 35, 41, 30, 25, 18, 65, 23, 31,
      40, 16, 54, 42, 56, 29, 34, 13]
  | .Deut => some [46, 37, 29, 49, 33, 25, 26, 20, 29, 22, 32, 32, 18, 29, 23, 22, 20, 22, 21, 20, 23, 30, 25, 22, 19, 19, 26, 68,
      29, 20, 30, 52, 29, 12]
  | .Josh => some [18, 24, 17, 24, 15, 27, 26, 35, 27, 43, 23, 24, 33, 15, 63, 10, 18, 28, 51, 9, 45, 34, 16, 33]
  | .Judg => some [36, 23, 31, 24, 31, 40, 25, 35, 57, 18, 40, 15, 25, 20, 20, 31, 13, 31, 30, 48, 25]
  | .Ruth => some [22, 23, 18, 22]
  | .ISam => some [28, 36, 21, 22, 12, 21, 17, 22, 27, 27, 15, 25, 23, 52, 35, 23, 58, 30, 24, 42, 15, 23, 29, 22, 44, 25, 12, 25,
      11, 31, 13]
  | .IISam => some [27, 32, 39, 12, 25, 23, 29, 18, 13, 19, 27, 31, 39, 33, 37, 23, 29, 33, 43, 26, 22, 51, 39, 25]
  | .IKgs => some [53, 46, 28, 34, 18, 38, 51, 66, 28, 29, 43, 33, 34, 31, 34, 34, 24, 46, 21, 43, 29, 53]
  | .IIKgs => some [18, 25, 27, 44, 27, 33, 20, 29, 37, 36, 21, 21, 25, 29, 38, 20, 41, 37, 37, 21, 26, 20, 37, 20, 30]
  | .IChr => some [54, 55, 24, 43, 26, 81, 40, 40, 44, 14, 47, 40, 14, 17, 29, 43, 27, 17, 19, 8, 30, 19, 32, 31, 31, 32, 34, 21,
      30]
  | .IIChr => some [17, 18, 17, 22, 14, 42, 22, 18, 31, 19, 23, 16, 22, 15, 19, 14, 19, 34, 11, 37, 20, 12, 21, 27, 28, 23, 9, 27,
      36, 27, 21, 33, 25, 33, 27, 23]
  | .Ezra => some [11, 70, 13, 24, 17, 22, 28, 36, 15, 44]
  | .Neh => some [11, 20, 32, 23, 19, 19, 73, 18, 38, 39, 36, 47, 31]
  | .Esth => some [22, 23, 15, 17, 14, 14, 10, 17, 32, 3]
  | .Job => some [22, 13, 26, 21, 27, 30, 21, 22, 35, 22, 20, 25, 28, 22, 35, 22, 16, 21, 29, 29, 34, 30, 17, 25, 6, 14, 23, 28,
      25, 31, 40, 22, 33, 37, 16, 33, 24, 41, 30, 24, 34, 17]
  | .Psa => some [6, 12, 8, 8, 12, 10, 17, 9, 20, 18, 7, 8, 6, 7, 5, 11, 15, 50, 14, 9, 13, 31, 6, 10, 22, 12, 14, 9, 11, 12, 24,
      11, 22, 22, 28, 12, 40, 22, 13, 17, 13, 11, 5, 26, 17, 11, 9, 14, 20, 23, 19, 9, 6, 7, 23, 13, 11, 11, 17, 12,
      8, 12, 11, 10, 13, 20, 7, 35, 36, 5, 24, 20, 28, 23, 10, 12, 20, 72, 13, 19, 16, 8, 18, 12, 13, 17, 7, 18, 52,
      17, 16, 15, 5, 23, 11, 13, 12, 9, 9, 5, 8, 28, 22, 35, 45, 48, 43, 13, 31, 7, 10, 10, 9, 8, 18, 19, 2, 29, 176,
      7, 8, 9, 4, 8, 5, 6, 5, 6, 8, 8, 3, 18, 3, 3, 21, 26, 9, 8, 24, 13, 10, 7, 12, 15, 21, 10, 20, 14, 9, 6]
  | .Prov => some [33, 22, 35, 27, 23, 35, 27, 36, 18, 32, 31, 28, 25, 35, 33, 33, 28, 24, 29, 30, 31, 29, 35, 34, 28, 28, 27, 28,
      27, 33, 31]
  | .Eccl => some [18, 26, 22, 16, 20, 12, 29, 17, 18, 20, 10, 14]
  | .Song => some [17, 17, 11, 16, 16, 13, 13, 14]
  | .Isa => some [31, 22, 26, 6, 30, 13, 25, 22, 21, 34, 16, 6, 22, 32, 9, 14, 14, 7, 25, 6, 17, 25, 18, 23, 12, 21, 13, 29, 24,
      33, 9, 20, 24, 17, 10, 22, 38, 22, 8, 31, 29, 25, 28, 28, 25, 13, 15, 22, 26, 11, 23, 15, 12, 17, 13, 12, 21,
      14, 21, 22, 11, 12, 19, 12, 25, 24]
  | .Jer => some [19, 37, 25, 31, 31, 30, 34, 22, 26, 25, 23, 17, 27, 22, 21, 21, 27, 23, 15, 18, 14, 30, 40, 10, 38, 24, 22, 17,
      32, 24, 40, 44, 26, 22, 19, 32, 21, 28, 18, 16, 18, 22, 13, 30, 5, 28, 7, 47, 39, 46, 64, 34]
  | .Lam => some [22, 22, 66, 22, 22]
  | .Ezek => some [28, 10, 27, 17, 17, 14, 27, 18, 11, 22, 25, 28, 23, 23, 8, 63, 24, 32, 14, 49, 32, 31, 49, 27, 17, 21, 36, 26,
      21, 26, 18, 32, 33, 31, 15, 38, 28, 23, 29, 49, 26, 20, 27, 31, 25, 24, 23, 35]
  | .Dan => some [21, 49, 30, 37, 31, 28, 28, 27, 27, 21, 45, 13]
  | .Hos => some [11, 23, 5, 19, 15, 11, 16, 14, 17, 15, 12, 14, 16, 9]
  | .Joel => some [20, 32, 21]
  | .Amos => some [15, 16, 15, 13, 27, 14, 17, 14, 15]
  | .Obad => some [21]
  | .Jonah => some [17, 10, 10, 11]
  | .Mic => some [16, 13, 12, 13, 15, 16, 20]
  | .Nah => some [15, 13, 19]
  | .Hab => some [17, 20, 19]
  | .Zeph => some [18, 15, 20]
  | .Hag => some [15, 23]
  | .Zech => some [21, 13, 10, 14, 11, 15, 14, 23, 17, 12, 17, 14, 9, 21]
  | .Mal => some [14, 17, 18, 6]
  | .Matt => some [25, 23, 17, 25, 48, 34, 29, 34, 38, 42, 30, 50, 58, 36, 39, 28, 27, 35, 30, 34, 46, 46, 39, 51, 46, 75, 66, 20]
  | .Mark => some [45, 28, 35, 41, 43, 56, 37, 38, 50, 52, 33, 44, 37, 72, 47, 20]
  | .Luke => some [80, 52, 38, 44, 39, 49, 50, 56, 62, 42, 54, 59, 35, 35, 32, 31, 37, 43, 48, 47, 38, 71, 56, 53]
  | .John => some [51, 25, 36, 54, 47, 71, 53, 59, 41, 42, 57, 50, 38, 31, 27, 33, 26, 40, 42, 31, 25]
  | .Acts => some [26, 47, 26, 37, 42, 15, 60, 40, 43, 48, 30, 25, 52, 28, 41, 40, 34, 28, 41, 38, 40, 30, 35, 27, 27, 32, 44, 31]
  | .Rom => some [32, 29, 31, 25, 21, 23, 25, 39, 33, 21, 36, 21, 14, 23, 33, 27]
  | .ICor => some [31, 16, 23, 21, 13, 20, 40, 13, 27, 33, 34, 31, 13, 40, 58, 24]
  | .IICor => some [24, 17, 18, 18, 21, 18, 16, 24, 15, 18, 33, 21, 14]
  | .Gal => some [24, 21, 29, 31, 26, 18]
  | .Eph => some [23, 22, 21, 32, 33, 24]
  | .Phil => some [30, 30, 21, 23]
  | .Col => some [29, 23, 25, 18]
  | .ITh => some [10, 20, 13, 18, 28]
  | .IITh => some [12, 17, 18]
  | .ITim => some [20, 15, 16, 16, 25, 21]
  | .IITim => some [18, 26, 17, 22]
  | .Titus => some [16, 15, 15]
  | .Phlm => some [25]
  | .Heb => some [14, 18, 19, 16, 14, 20, 28, 13, 28, 39, 40, 29, 25]
  | .Jam => some [27, 26, 18, 17, 20]
  | .IPet => some [25, 25, 22, 19, 14]
  | .IIPet => some [21, 22, 18]
  | .IJn => some [10, 29, 24, 21, 21]
  | .IIJn => some [13]
  | .IIIJn => some [14]
  | .Jude => some [25]
  | .Rev => some [20, 29, 22, 11, 14, 17, 17, 13, 21, 11, 19, 17, 18, 20, 8, 21, 18, 24, 21, 15, 27, 21]

/-- `default_verse_0s`, data.py:431-438, together with the `verse_0s` setter (data.py:195-202), which gives the empty
set to books without an entry. -/
def defaultVerse0s : BibleBook → List Int
  | .Psa => [3, 4, 5, 6, 7, 8, 9, 11, 12, 13, 14, 15, 16, 17, 18, 19, 20, 21, 22, 23, 24, 25, 26, 27, 28, 29, 30, 31, 32,
      34, 35, 36, 37, 38, 39, 40, 41, 42, 44, 45, 46, 47, 48, 49, 50, 51, 52, 53, 54, 55, 56, 57, 58, 59, 60, 61, 62,
      63, 64, 65, 66, 67, 68, 69, 70, 72, 73, 74, 75, 76, 77, 78, 79, 80, 81, 82, 83, 84, 85, 86, 87, 88, 89, 90, 92,
      98, 100, 101, 102, 103, 108, 109, 110, 120, 121, 122, 123, 124, 125, 126, 127, 128, 129, 130, 131, 132, 133,
      134, 138, 139, 140, 141, 142, 143, 144, 145]
  | _ => []

/-- `default_name_data`, data.py:278-345. -/
def defaultNameData : BibleBook → Option NameData
  | .Gen => some {
      abbr := ['G', 'e', 'n']
      title := ['G', 'e', 'n', 'e', 's', 'i', 's']
      minChars := 2
      extra := [['G', 'n']] }
  | .Exod => some {
      abbr := ['E', 'x', 'o', 'd']
      title := ['E', 'x', 'o', 'd', 'u', 's']
      minChars := 2
      extra := [] }
  | .Lev => some {
      abbr := ['L', 'e', 'v']
      title := ['L', 'e', 'v', 'i', 't', 'i', 'c', 'u', 's']
      minChars := 2
      extra := [['L', 'v']] }
  | .Num => some {
      abbr := ['N', 'u', 'm']
      title := ['N', 'u', 'm', 'b', 'e', 'r', 's']
      minChars := 2
      extra := [['N', 'm'], ['N', 'b']] }
  | .Deut => some {
      abbr := ['D', 'e', 'u', 't']
      title := ['D', 'e', 'u', 't', 'e', 'r', 'o', 'n', 'o', 'm', 'y']
      minChars := 2
      extra := [['D', 't']] }
  | .Josh => some {
      abbr := ['J', 'o', 's', 'h']
      title := ['J', 'o', 's', 'h', 'u', 'a']
      minChars := 3
      extra := [['J', 's'], ['J', 's', 'h']] }
  | .Judg => some {
      abbr := ['J', 'u', 'd', 'g']
      title := ['J', 'u', 'd', 'g', 'e', 's']
      minChars := 4
      extra := [['J', 'g'], ['J', 'd', 'g'], ['J', 'd', 'g', 's']] }
  | .Ruth => some {
      abbr := ['R', 'u', 't', 'h']
      title := ['R', 'u', 't', 'h']
      minChars := 2
      extra := [['R', 'u', 't', 'h']] }
  | .ISam => some {
      abbr := ['1', 'S', 'a', 'm']
      title := ['1', ' ', 'S', 'a', 'm', 'u', 'e', 'l']
      minChars := 1
      extra := [['1', ' ', 'S', 'm']] }
  | .IISam => some {
      abbr := ['2', 'S', 'a', 'm']
      title := ['2', ' ', 'S', 'a', 'm', 'u', 'e', 'l']
      minChars := 1
      extra := [['2', ' ', 'S', 'm']] }
  | .IKgs => some {
      abbr := ['1', 'K', 'g', 's']
      title := ['1', ' ', 'K', 'i', 'n', 'g', 's']
      minChars := 1
      extra := [['1', ' ', 'K', 'g'], ['1', ' ', 'K', 'g', 's']] }
  | .IIKgs => some {
      abbr := ['2', 'K', 'g', 's']
      title := ['2', ' ', 'K', 'i', 'n', 'g', 's']
      minChars := 1
      extra := [['2', ' ', 'K', 'g'], ['2', ' ', 'K', 'g', 's']] }
  | .IChr => some {
      abbr := ['1', 'C', 'h', 'r']
      title := ['1', ' ', 'C', 'h', 'r', 'o', 'n', 'i', 'c', 'l', 'e', 's']
      minChars := 2
      extra := [] }
  | .IIChr => some {
      abbr := ['2', 'C', 'h', 'r']
      title := ['2', ' ', 'C', 'h', 'r', 'o', 'n', 'i', 'c', 'l', 'e', 's']
      minChars := 2
      extra := [] }
  | .Ezra => some {
      abbr := ['E', 'z', 'r', 'a']
      title := ['E', 'z', 'r', 'a']
      minChars := 3
      extra := [] }
  | .Neh => some {
      abbr := ['N', 'e', 'h']
      title := ['N', 'e', 'h', 'e', 'm', 'i', 'a', 'h']
      minChars := 2
      extra := [] }
  | .Esth => some {
      abbr := ['E', 's', 't', 'h']
      title := ['E', 's', 't', 'h', 'e', 'r']
      minChars := 2
      extra := [] }
  | .Job => some {
      abbr := ['J', 'o', 'b']
      title := ['J', 'o', 'b']
      minChars := 3
      extra := [['J', 'b']] }
  | .Psa => some {
      abbr := ['P', 's', 'a']
      title := ['P', 's', 'a', 'l', 'm', 's']
      minChars := 2
      extra := [['P', 's', 'l', 'm'], ['P', 's', 'm'], ['P', 's', 's']] }
  | .Prov => some {
      abbr := ['P', 'r', 'o', 'v']
      title := ['P', 'r', 'o', 'v', 'e', 'r', 'b', 's']
      minChars := 2
      extra := [['P', 'r', 'v']] }
  | .Eccl => some {
      abbr := ['E', 'c', 'c', 'l']
      title := ['E', 'c', 'c', 'l', 'e', 's', 'i', 'a', 's', 't', 'e', 's']
      minChars := 2
      extra := [] }
  | .Song => some {
      abbr := ['S', 'o', 'n', 'g']
      title := ['S', 'o', 'n', 'g', ' ', 'o', 'f', ' ', 'S', 'o', 'n', 'g', 's']
      minChars := 2
      extra := [['S', 'o', 'n', 'g', ' ', 'o', 'f', ' ', 'S', 'o', 'l'], ['S', 'o', 'n', 'g', ' ', 'o', 'f', ' ', 'S', 'o', 'l', 'o'], ['S', 'o', 'n', 'g', ' ', 'o', 'f', ' ', 'S', 'o', 'l', 'o', 'm', 'o', 'n'], ['S', 'O', 'S']] }
  | .Isa => some {
      abbr := ['I', 's', 'a']
      title := ['I', 's', 'a', 'i', 'a', 'h']
      minChars := 2
      extra := [] }
  | .Jer => some {
      abbr := ['J', 'e', 'r']
      title := ['J', 'e', 'r', 'e', 'm', 'i', 'a', 'h']
      minChars := 2
      extra := [['J', 'r']] }
  | .Lam => some {
      abbr := ['L', 'a', 'm']
      title := ['L', 'a', 'm', 'e', 'n', 't', 'a', 't', 'i', 'o', 'n', 's']
      minChars := 2
      extra := [] }
  | .Ezek => some {
      abbr := ['E', 'z', 'e', 'k']
      title := ['E', 'z', 'e', 'k', 'i', 'e', 'l']
      minChars := 3
      extra := [['E', 'z', 'k']] }
  | .Dan => some {
      abbr := ['D', 'a', 'n']
      title := ['D', 'a', 'n', 'i', 'e', 'l']
      minChars := 2
      extra := [['D', 'n']] }
  | .Hos => some {
      abbr := ['H', 'o', 's']
      title := ['H', 'o', 's', 'e', 'a']
      minChars := 2
      extra := [] }
  | .Joel => some {
      abbr := ['J', 'o', 'e', 'l']
      title := ['J', 'o', 'e', 'l']
      minChars := 3
      extra := [['J', 'l']] }
  | .Amos => some {
      abbr := ['A', 'm', 'o', 's']
      title := ['A', 'm', 'o', 's']
      minChars := 2
      extra := [] }
  | .Obad => some {
      abbr := ['O', 'b', 'a', 'd']
      title := ['O', 'b', 'a', 'd', 'i', 'a', 'h']
      minChars := 2
      extra := [['O', 'b', 'd']] }
  | .Jonah => some {
      abbr := ['J', 'o', 'n', 'a']
      title := ['J', 'o', 'n', 'a', 'h']
      minChars := 3
      extra := [['J', 'n', 'h']] }
  | .Mic => some {
      abbr := ['M', 'i', 'c']
      title := ['M', 'i', 'c', 'a', 'h']
      minChars := 2
      extra := [['M', 'c']] }
  | .Nah => some {
      abbr := ['N', 'a', 'h']
      title := ['N', 'a', 'h', 'u', 'm']
      minChars := 2
      extra := [] }
  | .Hab => some {
      abbr := ['H', 'a', 'b']
      title := ['H', 'a', 'b', 'a', 'k', 'k', 'u', 'k']
      minChars := 3
      extra := [['H', 'b', 'k']] }
  | .Zeph => some {
      abbr := ['Z', 'e', 'p', 'h']
      title := ['Z', 'e', 'p', 'h', 'a', 'n', 'i', 'a', 'h']
      minChars := 3
      extra := [['Z', 'p'], ['Z', 'p', 'h']] }
  | .Hag => some {
      abbr := ['H', 'a', 'g']
      title := ['H', 'a', 'g', 'g', 'a', 'i']
      minChars := 3
      extra := [['H', 'g']] }
  | .Zech => some {
      abbr := ['Z', 'e', 'c', 'h']
      title := ['Z', 'e', 'c', 'h', 'a', 'r', 'i', 'a', 'h']
      minChars := 3
      extra := [['Z', 'c']] }
  | .Mal => some {
      abbr := ['M', 'a', 'l']
      title := ['M', 'a', 'l', 'a', 'c', 'h', 'i']
      minChars := 3
      extra := [['M', 'l']] }
  | .Matt => some {
      abbr := ['M', 'a', 't', 't']
      title := ['M', 'a', 't', 't', 'h', 'e', 'w']
      minChars := 3
      extra := [['M', 't']] }
  | .Mark => some {
      abbr := ['M', 'a', 'r', 'k']
      title := ['M', 'a', 'r', 'k']
      minChars := 3
      extra := [['M', 'k'], ['M', 'r', 'k']] }
  | .Luke => some {
      abbr := ['L', 'u', 'k', 'e']
      title := ['L', 'u', 'k', 'e']
      minChars := 2
      extra := [['L', 'k']] }
  | .John => some {
      abbr := ['J', 'o', 'h', 'n']
      title := ['J', 'o', 'h', 'n']
      minChars := 3
      extra := [['J', 'n'], ['J', 'h', 'n']] }
  | .Acts => some {
      abbr := ['A', 'c', 't', 's']
      title := ['A', 'c', 't', 's']
      minChars := 2
      extra := [] }
  | .Rom => some {
      abbr := ['R', 'o', 'm']
      title := ['R', 'o', 'm', 'a', 'n', 's']
      minChars := 2
      extra := [['R', 'm']] }
  | .ICor => some {
      abbr := ['1', 'C', 'o', 'r']
      title := ['1', ' ', 'C', 'o', 'r', 'i', 'n', 't', 'h', 'i', 'a', 'n', 's']
      minChars := 2
      extra := [] }
  | .IICor => some {
      abbr := ['2', 'C', 'o', 'r']
      title := ['2', ' ', 'C', 'o', 'r', 'i', 'n', 't', 'h', 'i', 'a', 'n', 's']
      minChars := 2
      extra := [] }
  | .Gal => some {
      abbr := ['G', 'a', 'l']
      title := ['G', 'a', 'l', 'a', 't', 'i', 'a', 'n', 's']
      minChars := 2
      extra := [] }
  | .Eph => some {
      abbr := ['E', 'p', 'h']
      title := ['E', 'p', 'h', 'e', 's', 'i', 'a', 'n', 's']
      minChars := 2
      extra := [] }
  | .Phil => some {
      abbr := ['P', 'h', 'i', 'l']
      title := ['P', 'h', 'i', 'l', 'i', 'p', 'p', 'i', 'a', 'n', 's']
      minChars := 4
      extra := [['P', 'p'], ['P', 'h', 'p']] }
  | .Col => some {
      abbr := ['C', 'o', 'l']
      title := ['C', 'o', 'l', 'o', 's', 's', 'i', 'a', 'n', 's']
      minChars := 2
      extra := [] }
  | .ITh => some {
      abbr := ['1', 'T', 'h']
      title := ['1', ' ', 'T', 'h', 'e', 's', 's', 'a', 'l', 'o', 'n', 'i', 'a', 'n', 's']
      minChars := 2
      extra := [['1', ' ', 'T', 'h', 's']] }
  | .IITh => some {
      abbr := ['2', 'T', 'h']
      title := ['2', ' ', 'T', 'h', 'e', 's', 's', 'a', 'l', 'o', 'n', 'i', 'a', 'n', 's']
      minChars := 2
      extra := [['2', ' ', 'T', 'h', 's']] }
  | .ITim => some {
      abbr := ['1', 'T', 'i', 'm']
      title := ['1', ' ', 'T', 'i', 'm', 'o', 't', 'h', 'y']
      minChars := 2
      extra := [] }
  | .IITim => some {
      abbr := ['2', 'T', 'i', 'm']
      title := ['2', ' ', 'T', 'i', 'm', 'o', 't', 'h', 'y']
      minChars := 2
      extra := [] }
  | .Titus => some {
      abbr := ['T', 'i', 't']
      title := ['T', 'i', 't', 'u', 's']
      minChars := 2
      extra := [] }
  | .Phlm => some {
      abbr := ['P', 'h', 'l', 'm']
      title := ['P', 'h', 'i', 'l', 'e', 'm', 'o', 'n']
      minChars := 5
      extra := [['P', 'm'], ['P', 'h', 'm'], ['P', 'h', 'l', 'm']] }
  | .Heb => some {
      abbr := ['H', 'e', 'b']
      title := ['H', 'e', 'b', 'r', 'e', 'w', 's']
      minChars := 2
      extra := [] }
  | .Jam => some {
      abbr := ['J', 'a', 'm']
      title := ['J', 'a', 'm', 'e', 's']
      minChars := 2
      extra := [['J', 'm'], ['J', 'a', 's']] }
  | .IPet => some {
      abbr := ['1', 'P', 'e', 't']
      title := ['1', ' ', 'P', 'e', 't', 'e', 'r']
      minChars := 1
      extra := [['1', ' ', 'P', 't']] }
  | .IIPet => some {
      abbr := ['2', 'P', 'e', 't']
      title := ['2', ' ', 'P', 'e', 't', 'e', 'r']
      minChars := 1
      extra := [['2', ' ', 'P', 't']] }
  | .IJn => some {
      abbr := ['1', 'J', 'n']
      title := ['1', ' ', 'J', 'o', 'h', 'n']
      minChars := 1
      extra := [['1', ' ', 'J', 'n'], ['1', ' ', 'J', 'h', 'n']] }
  | .IIJn => some {
      abbr := ['2', 'J', 'n']
      title := ['2', ' ', 'J', 'o', 'h', 'n']
      minChars := 1
      extra := [['2', ' ', 'J', 'n'], ['2', ' ', 'J', 'h', 'n']] }
  | .IIIJn => some {
      abbr := ['3', 'J', 'n']
      title := ['3', ' ', 'J', 'o', 'h', 'n']
      minChars := 1
      extra := [['3', ' ', 'J', 'n'], ['3', ' ', 'J', 'h', 'n']] }
  | .Jude => some {
      abbr := ['J', 'u', 'd', 'e']
      title := ['J', 'u', 'd', 'e']
      minChars := 4
      extra := [] }
  | .Rev => some {
      abbr := ['R', 'e', 'v']
      title := ['R', 'e', 'v', 'e', 'l', 'a', 't', 'i', 'o', 'n']
      minChars := 2
      extra := [['T', 'h', 'e', ' ', 'R', 'e', 'v', 'e', 'l', 'a', 't', 'i', 'o', 'n'], ['T', 'h', 'e', ' ', 'R', 'e', 'v', 'e', 'l', 'a', 't', 'i', 'o', 'n', ' ', 't', 'o', ' ', 'J', 'o',
                'h', 'n']] }

/-- The data the package starts with: `BibleData.__init__` (data.py:13-22) and data.py:446-450. -/
def defaultData : BibleData where
  bookOrder := defaultBookOrder
  maxVerses := defaultMaxVerses
  verse0s := defaultVerse0s
  nameData := defaultNameData
  rangeSep := '-'
  majorListSep := ';'
  minorListSep := ','
  verseSepStd := ':'
  verseSepAlt := '.'

end Bibleref

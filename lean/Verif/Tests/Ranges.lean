import Verif.Tests.Basic

/-!
# The tests of test/test_reference.py, run on the model

Written by tools/translate_tests.py, which translates the test methods statement by statement. The numbers are the lines of the
assertions. `BibleBook` as an iterable is the list of its members.
-/

namespace Bibleref.Tests

set_option linter.unusedVariables false

/-- `test_bible_ranges` (test/test_reference.py:140-211). -/
def test_bible_ranges : PM (List Nat) := do
  let e : Env := env
  let fails : List Nat := []
  let fails := fails ++ (← check 142 do return decide ((← mkRange e [(.book (.Matt : BibleBook)), .none, .none, .none, .none, .none] .none .none none) = (← mkRange e [(.book (.Matt : BibleBook)), (.int (1)), (.int (1)), (.book (.Matt : BibleBook)), (.int (28)), (.int (20))] .none .none none)))
  let fails := fails ++ (← check 143 do return decide ((← mkRange e [(.book (.Matt : BibleBook)), (.int (2)), .none, .none, .none, .none] .none .none none) = (← mkRange e [(.book (.Matt : BibleBook)), (.int (2)), (.int (1)), (.book (.Matt : BibleBook)), (.int (2)), (.int (23))] .none .none none)))
  let fails := fails ++ (← check 144 do return decide ((← mkRange e [(.book (.Matt : BibleBook)), (.int (2)), (.int (3)), .none, .none, .none] .none .none none) = (← mkRange e [(.book (.Matt : BibleBook)), (.int (2)), (.int (3)), (.book (.Matt : BibleBook)), (.int (2)), (.int (3))] .none .none none)))
  let fails := fails ++ (← check 145 do return decide ((← mkRange e [(.book (.Matt : BibleBook)), .none, .none, (.book (.John : BibleBook)), .none, .none] .none .none (some .MULTIBOOK)) = (← mkRange e [(.book (.Matt : BibleBook)), (.int (1)), (.int (1)), (.book (.John : BibleBook)), (.int (21)), (.int (25))] .none .none (some .MULTIBOOK))))
  let fails := fails ++ (← check 146 do return decide ((← mkRange e [(.book (.Matt : BibleBook)), (.int (2)), .none, (.book (.John : BibleBook)), .none, .none] .none .none (some .MULTIBOOK)) = (← mkRange e [(.book (.Matt : BibleBook)), (.int (2)), (.int (1)), (.book (.John : BibleBook)), (.int (21)), (.int (25))] .none .none (some .MULTIBOOK))))
  let fails := fails ++ (← check 147 do return decide ((← mkRange e [(.book (.Matt : BibleBook)), (.int (2)), (.int (3)), (.book (.John : BibleBook)), .none, .none] .none .none (some .MULTIBOOK)) = (← mkRange e [(.book (.Matt : BibleBook)), (.int (2)), (.int (3)), (.book (.John : BibleBook)), (.int (21)), (.int (25))] .none .none (some .MULTIBOOK))))
  let fails := fails ++ (← check 148 do return decide ((← mkRange e [(.book (.Matt : BibleBook)), .none, .none, .none, (.int (4)), .none] .none .none none) = (← mkRange e [(.book (.Matt : BibleBook)), (.int (1)), (.int (1)), (.book (.Matt : BibleBook)), (.int (4)), (.int (25))] .none .none none)))
  let fails := fails ++ (← check 149 do return decide ((← mkRange e [(.book (.Matt : BibleBook)), (.int (2)), .none, .none, (.int (4)), .none] .none .none none) = (← mkRange e [(.book (.Matt : BibleBook)), (.int (2)), (.int (1)), (.book (.Matt : BibleBook)), (.int (4)), (.int (25))] .none .none none)))
  let fails := fails ++ (← check 150 do return decide ((← mkRange e [(.book (.Matt : BibleBook)), (.int (2)), (.int (3)), .none, (.int (4)), .none] .none .none none) = (← mkRange e [(.book (.Matt : BibleBook)), (.int (2)), (.int (3)), (.book (.Matt : BibleBook)), (.int (4)), (.int (25))] .none .none none)))
  let fails := fails ++ (← check 151 do return decide ((← mkRange e [(.book (.Matt : BibleBook)), .none, .none, .none, .none, (.int (6))] .none .none none) = (← mkRange e [(.book (.Matt : BibleBook)), (.int (1)), (.int (1)), (.book (.Matt : BibleBook)), (.int (1)), (.int (6))] .none .none none)))
  let fails := fails ++ (← check 152 do return decide ((← mkRange e [(.book (.Matt : BibleBook)), (.int (2)), .none, .none, .none, (.int (6))] .none .none none) = (← mkRange e [(.book (.Matt : BibleBook)), (.int (2)), (.int (1)), (.book (.Matt : BibleBook)), (.int (2)), (.int (6))] .none .none none)))
  let fails := fails ++ (← check 153 do return decide ((← mkRange e [(.book (.Matt : BibleBook)), (.int (2)), (.int (3)), .none, .none, (.int (6))] .none .none none) = (← mkRange e [(.book (.Matt : BibleBook)), (.int (2)), (.int (3)), (.book (.Matt : BibleBook)), (.int (2)), (.int (6))] .none .none none)))
  let fails := fails ++ (← check 154 do return decide ((← mkRange e [(.book (.Matt : BibleBook)), .none, .none, (.book (.John : BibleBook)), (.int (5)), .none] .none .none (some .MULTIBOOK)) = (← mkRange e [(.book (.Matt : BibleBook)), (.int (1)), (.int (1)), (.book (.John : BibleBook)), (.int (5)), (.int (47))] .none .none (some .MULTIBOOK))))
  let fails := fails ++ (← check 155 do return decide ((← mkRange e [(.book (.Matt : BibleBook)), (.int (2)), .none, (.book (.John : BibleBook)), (.int (5)), .none] .none .none (some .MULTIBOOK)) = (← mkRange e [(.book (.Matt : BibleBook)), (.int (2)), (.int (1)), (.book (.John : BibleBook)), (.int (5)), (.int (47))] .none .none (some .MULTIBOOK))))
  let fails := fails ++ (← check 156 do return decide ((← mkRange e [(.book (.Matt : BibleBook)), (.int (2)), (.int (3)), (.book (.John : BibleBook)), (.int (5)), .none] .none .none (some .MULTIBOOK)) = (← mkRange e [(.book (.Matt : BibleBook)), (.int (2)), (.int (3)), (.book (.John : BibleBook)), (.int (5)), (.int (47))] .none .none (some .MULTIBOOK))))
  let fails := fails ++ (← check 157 do return decide ((← mkRange e [(.book (.Matt : BibleBook)), .none, .none, .none, (.int (6)), (.int (7))] .none .none none) = (← mkRange e [(.book (.Matt : BibleBook)), (.int (1)), (.int (1)), (.book (.Matt : BibleBook)), (.int (6)), (.int (7))] .none .none none)))
  let fails := fails ++ (← check 158 do return decide ((← mkRange e [(.book (.Matt : BibleBook)), (.int (2)), .none, .none, (.int (6)), (.int (7))] .none .none none) = (← mkRange e [(.book (.Matt : BibleBook)), (.int (2)), (.int (1)), (.book (.Matt : BibleBook)), (.int (6)), (.int (7))] .none .none none)))
  let fails := fails ++ (← check 159 do return decide ((← mkRange e [(.book (.Matt : BibleBook)), (.int (2)), (.int (3)), .none, (.int (6)), (.int (7))] .none .none none) = (← mkRange e [(.book (.Matt : BibleBook)), (.int (2)), (.int (3)), (.book (.Matt : BibleBook)), (.int (6)), (.int (7))] .none .none none)))
  let fails := fails ++ (← check 160 do return decide ((← mkRange e [(.book (.Matt : BibleBook)), .none, .none, (.book (.John : BibleBook)), (.int (8)), (.int (10))] .none .none (some .MULTIBOOK)) = (← mkRange e [(.book (.Matt : BibleBook)), (.int (1)), (.int (1)), (.book (.John : BibleBook)), (.int (8)), (.int (10))] .none .none (some .MULTIBOOK))))
  let fails := fails ++ (← check 161 do return decide ((← mkRange e [(.book (.Matt : BibleBook)), (.int (2)), .none, (.book (.John : BibleBook)), (.int (8)), (.int (10))] .none .none (some .MULTIBOOK)) = (← mkRange e [(.book (.Matt : BibleBook)), (.int (2)), (.int (1)), (.book (.John : BibleBook)), (.int (8)), (.int (10))] .none .none (some .MULTIBOOK))))
  let fails := fails ++ (← check 162 do return decide ((← mkRange e [(.book (.Matt : BibleBook)), (.int (2)), (.int (3)), (.book (.John : BibleBook)), (.int (8)), (.int (10))] .none .none (some .MULTIBOOK)) = (← mkRange e [(.book (.Matt : BibleBook)), (.int (2)), (.int (3)), (.book (.John : BibleBook)), (.int (8)), (.int (10))] .none .none (some .MULTIBOOK))))
  let fails := fails ++ (← checkRaises 163 .invalidReference do let _ := (← mkRange e [(.book (.Matt : BibleBook)), .none, (.int (3)), .none, .none, .none] .none .none none))
  let fails := fails ++ (← checkRaises 164 .invalidReference do let _ := (← mkRange e [(.book (.Matt : BibleBook)), .none, .none, (.book (.John : BibleBook)), .none, (.int (6))] .none .none none))
  let bible_range := (← mkRange e [(.str ("Matt 2:3-4:5".toList))] .none .none none)
  let fails := fails ++ (← check 168 do return decide ((bible_range) = (← mkRange e [(.range (bible_range))] .none .none none)))
  let fails := fails ++ (← check 171 do return decide ((← mkRange e [(.str ("Matt 2:3-4:5".toList))] .none .none none) = (← mkRange e [] (.verse (← BibleVerse.ofValues uni e [(.str ("Matt 2:3".toList))] none)) (.verse (← BibleVerse.ofValues uni e [(.str ("Matt 4:5".toList))] none)) none)))
  let fails := fails ++ (← check 175 do return decide ((← mkRange e [(.str ("Matt".toList)), (.int (2)), (.int (3)), (.str ("Mark".toList)), (.int (4)), (.int (5))] .none .none (some .MULTIBOOK)) = (← mkRange e [(.book (.Matt : BibleBook)), (.int (2)), (.int (3)), (.book (.Mark : BibleBook)), (.int (4)), (.int (5))] .none .none (some .MULTIBOOK))))
  let fails := fails ++ (← check 177 do return decide ((← mkRange e [(.str ("Matthew 2:3-Mark 4:5".toList))] .none .none (some .MULTIBOOK)) = (← mkRange e [(.book (.Matt : BibleBook)), (.int (2)), (.int (3)), (.book (.Mark : BibleBook)), (.int (4)), (.int (5))] .none .none (some .MULTIBOOK))))
  let fails := fails ++ (← checkRaises 179 .invalidReference do let _ := (← mkRange e [(.str ("Matthew 2:3-4:5; Mark 5:6".toList))] .none .none none))
  let fails := fails ++ (← check 182 do return decide ((← mkRange e [(.str ("Matt-Mark".toList))] .none .none (some .MULTIBOOK)) = (← mkRange e [(.book (.Matt : BibleBook)), .none, .none, (.book (.Mark : BibleBook))] .none .none (some .MULTIBOOK))))
  let fails := fails ++ (← checkRaises 184 .multibookRange do let _ := (← mkRange e [(.book (.Matt : BibleBook)), .none, .none, (.book (.Mark : BibleBook))] .none .none (some .none)))
  let fails := fails ++ (← check 188 do return decide ((← mkRange e [(.str ("Psa 3:0-3".toList))] .none .none (some .VERSE_0)) = (← mkRange e [(.book (.Psa : BibleBook)), (.int (3)), (.int (0)), .none, .none, (.int (3))] .none .none (some .VERSE_0))))
  let fails := fails ++ (← checkRaises 190 .invalidReference do let _ := (← mkRange e [(.book (.Psa : BibleBook)), (.int (3)), (.int (0)), .none, .none, (.int (3))] .none .none (some .none)))
  let fails := fails ++ (← check 194 do return decide ((← mkRange e [(.str ("Matt 2:3-4:5".toList))] .none .none none) = (← mkRange e [] (.verse (← BibleVerse.ofValues uni e [(.str ("Matt 4:5".toList))] none)) (.verse (← BibleVerse.ofValues uni e [(.str ("Matt 2:3".toList))] none)) none)))
  let fails := fails ++ (← checkRaises 196 .invalidReference do let _ := (← mkRange e [.none, .none, .none, (.book (.Matt : BibleBook)), .none, .none] .none .none none))
  let fails := fails ++ (← check 197 do return decide ((← mkRange e [(.book (.John : BibleBook)), .none, .none, (.book (.Matt : BibleBook)), .none, .none] .none .none (some .MULTIBOOK)) = (← mkRange e [(.str ("Matt-John".toList))] .none .none (some .MULTIBOOK))))
  let fails := fails ++ (← check 198 do return decide ((← mkRange e [(.book (.John : BibleBook)), .none, .none, (.book (.Matt : BibleBook)), (.int (2)), .none] .none .none (some .MULTIBOOK)) = (← mkRange e [(.str ("Matt 2-John".toList))] .none .none (some .MULTIBOOK))))
  let fails := fails ++ (← check 199 do return decide ((← mkRange e [(.book (.John : BibleBook)), .none, .none, (.book (.Matt : BibleBook)), (.int (2)), (.int (3))] .none .none (some .MULTIBOOK)) = (← mkRange e [(.str ("Matt 2:3-John".toList))] .none .none (some .MULTIBOOK))))
  let fails := fails ++ (← check 200 do return decide ((← mkRange e [(.book (.Matt : BibleBook)), (.int (4)), .none, .none, (.int (2)), .none] .none .none none) = (← mkRange e [(.str ("Matt 2-4".toList))] .none .none none)))
  let fails := fails ++ (← check 201 do return decide ((← mkRange e [(.book (.Matt : BibleBook)), (.int (4)), .none, .none, (.int (2)), (.int (3))] .none .none none) = (← mkRange e [(.str ("Matt 2:3-Matt 4".toList))] .none .none none)))
  let fails := fails ++ (← checkRaises 202 .invalidReference do let _ := (← mkRange e [(.book (.Matt : BibleBook)), .none, (.int (6)), .none, .none, .none] .none .none none))
  let fails := fails ++ (← check 203 do return decide ((← mkRange e [(.book (.Matt : BibleBook)), (.int (2)), (.int (6)), .none, .none, (.int (3))] .none .none none) = (← mkRange e [(.str ("Matt 2:3-6".toList))] .none .none none)))
  let fails := fails ++ (← check 204 do return decide ((← mkRange e [(.book (.John : BibleBook)), (.int (5)), .none, (.book (.Matt : BibleBook)), .none, .none] .none .none (some .MULTIBOOK)) = (← mkRange e [(.str ("Matt-John 5".toList))] .none .none (some .MULTIBOOK))))
  let fails := fails ++ (← check 205 do return decide ((← mkRange e [(.book (.John : BibleBook)), (.int (5)), .none, (.book (.Matt : BibleBook)), (.int (2)), .none] .none .none (some .MULTIBOOK)) = (← mkRange e [(.str ("Matt 2-John 5".toList))] .none .none (some .MULTIBOOK))))
  let fails := fails ++ (← check 206 do return decide ((← mkRange e [(.book (.John : BibleBook)), (.int (5)), .none, (.book (.Matt : BibleBook)), (.int (2)), (.int (3))] .none .none (some .MULTIBOOK)) = (← mkRange e [(.str ("Matt 2:3-John 5".toList))] .none .none (some .MULTIBOOK))))
  let fails := fails ++ (← check 207 do return decide ((← mkRange e [(.book (.Matt : BibleBook)), (.int (6)), (.int (7)), .none, (.int (2)), .none] .none .none none) = (← mkRange e [(.str ("Matt 2-6:7".toList))] .none .none none)))
  let fails := fails ++ (← check 208 do return decide ((← mkRange e [(.book (.Matt : BibleBook)), (.int (6)), (.int (7)), .none, (.int (2)), (.int (3))] .none .none none) = (← mkRange e [(.str ("Matt 2:3-6:7".toList))] .none .none none)))
  let fails := fails ++ (← check 209 do return decide ((← mkRange e [(.book (.John : BibleBook)), (.int (8)), (.int (10)), (.book (.Matt : BibleBook)), .none, .none] .none .none (some .MULTIBOOK)) = (← mkRange e [(.str ("Matt-John 8:10".toList))] .none .none (some .MULTIBOOK))))
  let fails := fails ++ (← check 210 do return decide ((← mkRange e [(.book (.John : BibleBook)), (.int (8)), (.int (10)), (.book (.Matt : BibleBook)), (.int (2)), .none] .none .none (some .MULTIBOOK)) = (← mkRange e [(.str ("Matt 2-John 8:10".toList))] .none .none (some .MULTIBOOK))))
  let fails := fails ++ (← check 211 do return decide ((← mkRange e [(.book (.John : BibleBook)), (.int (8)), (.int (10)), (.book (.Matt : BibleBook)), (.int (2)), (.int (3))] .none .none (some .MULTIBOOK)) = (← mkRange e [(.str ("Matt 2:3-John 8:10".toList))] .none .none (some .MULTIBOOK))))
  return fails

theorem test_bible_ranges_passes : (test_bible_ranges PState.init).1 = .ok [] := by decide +kernel

/-- `test_bibleref_flags` (test/test_reference.py:213-223). -/
def test_bibleref_flags : PM (List Nat) := do
  let e : Env := env
  let fails : List Nat := []
  let orig_flags := e.flags
  let e : Env := { e with flags := .none }
  let fails := fails ++ (← checkRaises 216 .multibookRange do let _ := (← mkRange e [(.book (.Matt : BibleBook)), .none, .none, (.book (.John : BibleBook))] .none .none none))
  let fails := fails ++ (← checkRaises 217 .invalidReference do let _ := (← BibleVerse.ofValues uni e [(.book (.Psa : BibleBook)), (.int (3)), (.int (0))] none))
  let e : Env := { e with flags := .ALL }
  let bible_range := (← mkRange e [(.book (.Matt : BibleBook)), .none, .none, (.book (.John : BibleBook))] .none .none none)
  let bible_verse := (← BibleVerse.ofValues uni e [(.book (.Psa : BibleBook)), (.int (3)), (.int (0))] none)
  let e : Env := { e with flags := orig_flags }
  return fails

theorem test_bibleref_flags_passes : (test_bibleref_flags PState.init).1 = .ok [] := by decide +kernel

/-- `test_whole_bible` (test/test_reference.py:225-226). -/
def test_whole_bible : PM (List Nat) := do
  let e : Env := env
  let fails : List Nat := []
  let fails := fails ++ (← check 226 do return decide ((← PM.lift (BibleRange.wholeBible e none)) = (← mkRange e [(.str ("Gen-Rev".toList))] .none .none (some .MULTIBOOK))))
  return fails

theorem test_whole_bible_passes : (test_whole_bible PState.init).1 = .ok [] := by decide +kernel

/-- `test_bible_range_comparison` (test/test_reference.py:228-257). -/
def test_bible_range_comparison : PM (List Nat) := do
  let e : Env := env
  let fails : List Nat := []
  let fails := fails ++ (← check 229 do return (← PM.lift (BibleRange.cmp e.data .lt (← mkRange e [(.str ("Matt 2:3-4:5".toList))] .none .none none) (← mkRange e [(.str ("Matt 2:3-4:6".toList))] .none .none none))))
  let fails := fails ++ (← check 230 do return (← PM.lift (BibleRange.cmp e.data .le (← mkRange e [(.str ("Matt 2:3-4:5".toList))] .none .none none) (← mkRange e [(.str ("Matt 2:3-4:6".toList))] .none .none none))))
  let fails := fails ++ (← check 231 do return !(decide ((← mkRange e [(.str ("Matt 2:3-4:5".toList))] .none .none none) = (← mkRange e [(.str ("Matt 2:3-4:6".toList))] .none .none none))))
  let fails := fails ++ (← check 232 do return !(← PM.lift (BibleRange.cmp e.data .ge (← mkRange e [(.str ("Matt 2:3-4:5".toList))] .none .none none) (← mkRange e [(.str ("Matt 2:3-4:6".toList))] .none .none none))))
  let fails := fails ++ (← check 233 do return !(← PM.lift (BibleRange.cmp e.data .gt (← mkRange e [(.str ("Matt 2:3-4:5".toList))] .none .none none) (← mkRange e [(.str ("Matt 2:3-4:6".toList))] .none .none none))))
  let fails := fails ++ (← check 235 do return (← PM.lift (BibleRange.cmp e.data .lt (← mkRange e [(.str ("Matt 2:3-4:5".toList))] .none .none none) (← mkRange e [(.str ("Matt 2:3-5:1".toList))] .none .none none))))
  let fails := fails ++ (← check 236 do return (← PM.lift (BibleRange.cmp e.data .le (← mkRange e [(.str ("Matt 2:3-4:5".toList))] .none .none none) (← mkRange e [(.str ("Matt 2:3-5:1".toList))] .none .none none))))
  let fails := fails ++ (← check 237 do return !(decide ((← mkRange e [(.str ("Matt 2:3-4:5".toList))] .none .none none) = (← mkRange e [(.str ("Matt 2:3-5:1".toList))] .none .none none))))
  let fails := fails ++ (← check 238 do return !(← PM.lift (BibleRange.cmp e.data .ge (← mkRange e [(.str ("Matt 2:3-4:5".toList))] .none .none none) (← mkRange e [(.str ("Matt 2:3-5:1".toList))] .none .none none))))
  let fails := fails ++ (← check 239 do return !(← PM.lift (BibleRange.cmp e.data .gt (← mkRange e [(.str ("Matt 2:3-4:5".toList))] .none .none none) (← mkRange e [(.str ("Matt 2:3-5:1".toList))] .none .none none))))
  let fails := fails ++ (← check 241 do return (← PM.lift (BibleRange.cmp e.data .lt (← mkRange e [(.str ("Matt 2:3-4:5".toList))] .none .none none) (← mkRange e [(.str ("Matt 2:4-3:1".toList))] .none .none none))))
  let fails := fails ++ (← check 242 do return (← PM.lift (BibleRange.cmp e.data .le (← mkRange e [(.str ("Matt 2:3-4:5".toList))] .none .none none) (← mkRange e [(.str ("Matt 2:4-3:1".toList))] .none .none none))))
  let fails := fails ++ (← check 243 do return !(decide ((← mkRange e [(.str ("Matt 2:3-4:5".toList))] .none .none none) = (← mkRange e [(.str ("Matt 2:4-3:1".toList))] .none .none none))))
  let fails := fails ++ (← check 244 do return !(← PM.lift (BibleRange.cmp e.data .ge (← mkRange e [(.str ("Matt 2:3-4:5".toList))] .none .none none) (← mkRange e [(.str ("Matt 2:4-3:1".toList))] .none .none none))))
  let fails := fails ++ (← check 245 do return !(← PM.lift (BibleRange.cmp e.data .gt (← mkRange e [(.str ("Matt 2:3-4:5".toList))] .none .none none) (← mkRange e [(.str ("Matt 2:4-3:1".toList))] .none .none none))))
  let fails := fails ++ (← check 247 do return (← PM.lift (BibleRange.cmp e.data .lt (← mkRange e [(.str ("Matt 2:3-4:5".toList))] .none .none none) (← mkRange e [(.str ("Matt 3:1-3:2".toList))] .none .none none))))
  let fails := fails ++ (← check 248 do return (← PM.lift (BibleRange.cmp e.data .le (← mkRange e [(.str ("Matt 2:3-4:5".toList))] .none .none none) (← mkRange e [(.str ("Matt 3:1-3:2".toList))] .none .none none))))
  let fails := fails ++ (← check 249 do return !(decide ((← mkRange e [(.str ("Matt 2:3-4:5".toList))] .none .none none) = (← mkRange e [(.str ("Matt 3:1-3:3".toList))] .none .none none))))
  let fails := fails ++ (← check 250 do return !(← PM.lift (BibleRange.cmp e.data .ge (← mkRange e [(.str ("Matt 2:3-4:5".toList))] .none .none none) (← mkRange e [(.str ("Matt 3:1-3:3".toList))] .none .none none))))
  let fails := fails ++ (← check 251 do return !(← PM.lift (BibleRange.cmp e.data .gt (← mkRange e [(.str ("Matt 2:3-4:5".toList))] .none .none none) (← mkRange e [(.str ("Matt 3:1-3:3".toList))] .none .none none))))
  let fails := fails ++ (← check 253 do return (← PM.lift (BibleRange.cmp e.data .lt (← mkRange e [(.str ("Matt 2:3-4:5".toList))] .none .none none) (← mkRange e [(.str ("Mark 1:2-3:4".toList))] .none .none none))))
  let fails := fails ++ (← check 254 do return (← PM.lift (BibleRange.cmp e.data .le (← mkRange e [(.str ("Matt 2:3-4:5".toList))] .none .none none) (← mkRange e [(.str ("Mark 1:2-3:4".toList))] .none .none none))))
  let fails := fails ++ (← check 255 do return !(decide ((← mkRange e [(.str ("Matt 2:3-4:5".toList))] .none .none none) = (← mkRange e [(.str ("Mark 1:2-3:4".toList))] .none .none none))))
  let fails := fails ++ (← check 256 do return !(← PM.lift (BibleRange.cmp e.data .ge (← mkRange e [(.str ("Matt 2:3-4:5".toList))] .none .none none) (← mkRange e [(.str ("Mark 1:2-3:4".toList))] .none .none none))))
  let fails := fails ++ (← check 257 do return !(← PM.lift (BibleRange.cmp e.data .gt (← mkRange e [(.str ("Matt 2:3-4:5".toList))] .none .none none) (← mkRange e [(.str ("Mark 1:2-3:4".toList))] .none .none none))))
  return fails

theorem test_bible_range_comparison_passes : (test_bible_range_comparison PState.init).1 = .ok [] := by decide +kernel

/-- `test_bible_range_verse_0` (test/test_reference.py:259-266). -/
def test_bible_range_verse_0 : PM (List Nat) := do
  let e : Env := env
  let fails : List Nat := []
  let range_with_0 := (← mkRange e [(.str ("Ps 3:0-4:0".toList))] .none .none (some .VERSE_0))
  let range_with_1 := (← mkRange e [(.str ("Ps 3:1-4:1".toList))] .none .none (some .VERSE_0))
  let no_verse_0 := (← mkRange e [(.str ("Matt 2:3-4:5".toList))] .none .none none)
  let fails := fails ++ (← check 263 do return decide ((← PM.lift (BibleRange.verse0to1 e (range_with_0))) = (range_with_1)))
  let fails := fails ++ (← check 264 do return decide ((← PM.lift (BibleRange.verse1to0 e (range_with_1))) = (range_with_0)))
  let fails := fails ++ (← check 265 do return decide ((← PM.lift (BibleRange.verse0to1 e (no_verse_0))) = (no_verse_0)))
  let fails := fails ++ (← check 266 do return decide ((← PM.lift (BibleRange.verse1to0 e (no_verse_0))) = (no_verse_0)))
  return fails

theorem test_bible_range_verse_0_passes : (test_bible_range_verse_0 PState.init).1 = .ok [] := by decide +kernel

/-- `test_range_iteration` (test/test_reference.py:268-296). -/
def test_range_iteration : PM (List Nat) := do
  let e : Env := env
  let fails : List Nat := []
  let bible_range := (← mkRange e [(.book (.Matt : BibleBook)), (.int (28)), (.int (18)), (.book (.Mark : BibleBook)), (.int (1)), (.int (3))] .none .none (some .MULTIBOOK))
  let expected_list := ([(← BibleVerse.ofValues uni e [(.book (.Matt : BibleBook)), (.int (28)), (.int (18))] none), (← BibleVerse.ofValues uni e [(.book (.Matt : BibleBook)), (.int (28)), (.int (19))] none), (← BibleVerse.ofValues uni e [(.book (.Matt : BibleBook)), (.int (28)), (.int (20))] none), (← BibleVerse.ofValues uni e [(.book (.Mark : BibleBook)), (.int (1)), (.int (1))] none), (← BibleVerse.ofValues uni e [(.book (.Mark : BibleBook)), (.int (1)), (.int (2))] none), (← BibleVerse.ofValues uni e [(.book (.Mark : BibleBook)), (.int (1)), (.int (3))] none)])
  let fails := fails ++ (← check 278 do return decide ((← PM.lift (BibleRange.iter e (bible_range))) = (expected_list)))
  let bible_range := (← mkRange e [(.book (.Matt : BibleBook)), (.int (28)), (.int (18)), .none, (.int (28)), (.int (20))] .none .none none)
  let expected_list := ([(← BibleVerse.ofValues uni e [(.book (.Matt : BibleBook)), (.int (28)), (.int (18))] none), (← BibleVerse.ofValues uni e [(.book (.Matt : BibleBook)), (.int (28)), (.int (19))] none), (← BibleVerse.ofValues uni e [(.book (.Matt : BibleBook)), (.int (28)), (.int (20))] none)])
  let fails := fails ++ (← check 286 do return decide ((← PM.lift (BibleRange.iter e (bible_range))) = (expected_list)))
  let bible_range := (← mkRange e [(.book (.Rev : BibleBook)), (.int (22)), (.int (19)), .none, (.int (22)), (.int (21))] .none .none none)
  let expected_list := ([(← BibleVerse.ofValues uni e [(.book (.Rev : BibleBook)), (.int (22)), (.int (19))] none), (← BibleVerse.ofValues uni e [(.book (.Rev : BibleBook)), (.int (22)), (.int (20))] none), (← BibleVerse.ofValues uni e [(.book (.Rev : BibleBook)), (.int (22)), (.int (21))] none)])
  let fails := fails ++ (← check 296 do return decide ((← PM.lift (BibleRange.iter e (bible_range))) = (expected_list)))
  return fails

theorem test_range_iteration_passes : (test_range_iteration PState.init).1 = .ok [] := by decide +kernel

/-- `test_range_ranges` (test/test_reference.py:298-301). -/
def test_range_ranges : PM (List Nat) := do
  let e : Env := env
  let fails : List Nat := []
  let bible_range := (← mkRange e [(.str ("Matt 3:8-John 4:9".toList))] .none .none (some .MULTIBOOK))
  let fails := fails ++ (← check 300 do return decide ((← PM.lift (BibleRange.chapRange e (bible_range) none)) = (← mkRange e [(.str ("Matt 3-John 4".toList))] .none .none (some .MULTIBOOK))))
  let fails := fails ++ (← check 301 do return decide ((← PM.lift (BibleRange.bookRange e (bible_range) none)) = (← mkRange e [(.str ("Matt-John".toList))] .none .none (some .MULTIBOOK))))
  return fails

theorem test_range_ranges_passes : (test_range_ranges PState.init).1 = .ok [] := by decide +kernel

/-- `test_range_counts` (test/test_reference.py:303-334). -/
def test_range_counts : PM (List Nat) := do
  let e : Env := env
  let fails : List Nat := []
  let bible_range := (← mkRange e [(.str ("1 John 1:5-3 John 8".toList))] .none .none (some .MULTIBOOK))
  let fails := fails ++ (← check 306 do return decide (((← PM.lift (BibleRange.verseCount e (bible_range))) : Int) = (122)))
  let fails := fails ++ (← check 307 do return decide (((← PM.lift (BibleRange.chapCount e (bible_range) false)) : Int) = (7)))
  let fails := fails ++ (← check 308 do return decide (((← PM.lift (BibleRange.chapCount e (bible_range) true)) : Int) = (5)))
  let fails := fails ++ (← check 309 do return decide (((← PM.lift (BibleRange.bookCount e (bible_range) false)) : Int) = (3)))
  let fails := fails ++ (← check 310 do return decide (((← PM.lift (BibleRange.bookCount e (bible_range) true)) : Int) = (1)))
  let bible_range := (← mkRange e [(.str ("1 John 1:5-3:10".toList))] .none .none (some .MULTIBOOK))
  let fails := fails ++ (← check 314 do return decide (((← PM.lift (BibleRange.verseCount e (bible_range))) : Int) = (45)))
  let fails := fails ++ (← check 315 do return decide (((← PM.lift (BibleRange.chapCount e (bible_range) false)) : Int) = (3)))
  let fails := fails ++ (← check 316 do return decide (((← PM.lift (BibleRange.chapCount e (bible_range) true)) : Int) = (1)))
  let fails := fails ++ (← check 317 do return decide (((← PM.lift (BibleRange.bookCount e (bible_range) false)) : Int) = (1)))
  let fails := fails ++ (← check 318 do return decide (((← PM.lift (BibleRange.bookCount e (bible_range) true)) : Int) = (0)))
  let bible_range := (← mkRange e [(.str ("1 John 1:5-2:11".toList))] .none .none (some .MULTIBOOK))
  let fails := fails ++ (← check 322 do return decide (((← PM.lift (BibleRange.verseCount e (bible_range))) : Int) = (17)))
  let fails := fails ++ (← check 323 do return decide (((← PM.lift (BibleRange.chapCount e (bible_range) false)) : Int) = (2)))
  let fails := fails ++ (← check 324 do return decide (((← PM.lift (BibleRange.chapCount e (bible_range) true)) : Int) = (0)))
  let fails := fails ++ (← check 325 do return decide (((← PM.lift (BibleRange.bookCount e (bible_range) false)) : Int) = (1)))
  let fails := fails ++ (← check 326 do return decide (((← PM.lift (BibleRange.bookCount e (bible_range) true)) : Int) = (0)))
  let bible_range := (← mkRange e [(.str ("3 John 5-10".toList))] .none .none none)
  let fails := fails ++ (← check 330 do return decide (((← PM.lift (BibleRange.verseCount e (bible_range))) : Int) = (6)))
  let fails := fails ++ (← check 331 do return decide (((← PM.lift (BibleRange.chapCount e (bible_range) false)) : Int) = (1)))
  let fails := fails ++ (← check 332 do return decide (((← PM.lift (BibleRange.chapCount e (bible_range) true)) : Int) = (0)))
  let fails := fails ++ (← check 333 do return decide (((← PM.lift (BibleRange.bookCount e (bible_range) false)) : Int) = (1)))
  let fails := fails ++ (← check 334 do return decide (((← PM.lift (BibleRange.bookCount e (bible_range) true)) : Int) = (0)))
  return fails

theorem test_range_counts_passes : (test_range_counts PState.init).1 = .ok [] := by decide +kernel

/-- `test_range_split` (test/test_reference.py:336-355). -/
def test_range_split : PM (List Nat) := do
  let e : Env := env
  let fails : List Nat := []
  let ref := (← mkRange e [(.str ("Matt 1:5-John 10:11".toList))] .none .none (some .MULTIBOOK))
  let split := (← PM.lift (BibleRange.split e (ref) false false none true none fuel))
  let fails := fails ++ (← check 339 do return decide ((split) = (← RangeList.ofValues uni e [(.str ("Matt 1:5-John 10:11".toList))] (some .MULTIBOOK))))
  let ref := (← mkRange e [(.str ("Matt 1:5-John 10:11".toList))] .none .none (some .MULTIBOOK))
  let split := (← PM.lift (BibleRange.split e (ref) true false none true none fuel))
  let fails := fails ++ (← check 343 do return decide ((split) = (← RangeList.ofValues uni e [(.str ("Matt 1:5-28:20; Mark; Luke; John 1-10:11".toList))] none)))
  let ref := (← mkRange e [(.str ("John 1:11-10:5".toList))] .none .none none)
  let split := (← PM.lift (BibleRange.split e (ref) false true none true none fuel))
  let fails := fails ++ (← check 347 do return decide ((split) = (← RangeList.ofValues uni e [(.str ("John 1:11-51; 2; 3; 4; 5; 6; 7; 8; 9; 10:1-5".toList))] none)))
  let ref := (← mkRange e [(.str ("John 1:1-11".toList))] .none .none none)
  let split := (← PM.lift (BibleRange.split e (ref) false false (some 10) true none fuel))
  let fails := fails ++ (← check 351 do return decide ((split) = (← RangeList.ofValues uni e [(.str ("John 1:1-10, 11".toList))] none)))
  let ref := (← mkRange e [(.str ("John 1:11-10:5".toList))] .none .none none)
  let split := (← PM.lift (BibleRange.split e (ref) false false (some 100) true none fuel))
  let fails := fails ++ (← check 355 do return decide ((split) = (← RangeList.ofValues uni e [(.str ("John 1:11-3:34; 3:35-5:44; 5:45-7:26; 7:27-9:14; 9:15-10:5".toList))] none)))
  return fails

theorem test_range_split_passes : (test_range_split PState.init).1 = .ok [] := by decide +kernel

/-- `test_range_is_disjoint` (test/test_reference.py:357-375). -/
def test_range_is_disjoint : PM (List Nat) := do
  let e : Env := env
  let fails : List Nat := []
  let test_range := (← mkRange e [(.str ("Matt 1:10-15".toList))] .none .none none)
  let fails := fails ++ (← check 360 do return (← PM.lift (BibleRange.isDisjointV e (test_range) (.verse (← BibleVerse.ofValues uni e [(.str ("Matt 1:9".toList))] none)))))
  let fails := fails ++ (← check 361 do return !(← PM.lift (BibleRange.isDisjointV e (test_range) (.verse (← BibleVerse.ofValues uni e [(.str ("Matt 1:10".toList))] none)))))
  let fails := fails ++ (← check 363 do return (← PM.lift (BibleRange.isDisjointV e (test_range) (.range (← mkRange e [(.str ("Matt 1:5-9".toList))] .none .none none)))))
  let fails := fails ++ (← check 364 do return !(← PM.lift (BibleRange.isDisjointV e (test_range) (.range (← mkRange e [(.str ("Matt 1:5-10".toList))] .none .none none)))))
  let fails := fails ++ (← check 365 do return !(← PM.lift (BibleRange.isDisjointV e (test_range) (.range (← mkRange e [(.str ("Matt 1:5-11".toList))] .none .none none)))))
  let fails := fails ++ (← check 366 do return !(← PM.lift (BibleRange.isDisjointV e (test_range) (.range (← mkRange e [(.str ("Matt 1:10-12".toList))] .none .none none)))))
  let fails := fails ++ (← check 367 do return !(← PM.lift (BibleRange.isDisjointV e (test_range) (.range (← mkRange e [(.str ("Matt 1:11-14".toList))] .none .none none)))))
  let fails := fails ++ (← check 368 do return !(← PM.lift (BibleRange.isDisjointV e (test_range) (.range (← mkRange e [(.str ("Matt 1:13-15".toList))] .none .none none)))))
  let fails := fails ++ (← check 369 do return !(← PM.lift (BibleRange.isDisjointV e (test_range) (.range (← mkRange e [(.str ("Matt 1:10-15".toList))] .none .none none)))))
  let fails := fails ++ (← check 370 do return !(← PM.lift (BibleRange.isDisjointV e (test_range) (.range (← mkRange e [(.str ("Matt 1:14-20".toList))] .none .none none)))))
  let fails := fails ++ (← check 371 do return !(← PM.lift (BibleRange.isDisjointV e (test_range) (.range (← mkRange e [(.str ("Matt 1:15-20".toList))] .none .none none)))))
  let fails := fails ++ (← check 372 do return (← PM.lift (BibleRange.isDisjointV e (test_range) (.range (← mkRange e [(.str ("Matt 1:16-20".toList))] .none .none none)))))
  let fails := fails ++ (← check 374 do return (← PM.lift (BibleRange.isDisjointV e (test_range) (.list (← RangeList.ofValues uni e [(.str ("Matt 1:16-20; Mark 9-11; Luke 13-15; John 17-19".toList))] none)))))
  let fails := fails ++ (← check 375 do return !(← PM.lift (BibleRange.isDisjointV e (test_range) (.list (← RangeList.ofValues uni e [(.str ("Matt 1:15-20; Mark 9-11; Luke 12-15; John 17-19".toList))] none)))))
  return fails

theorem test_range_is_disjoint_passes : (test_range_is_disjoint PState.init).1 = .ok [] := by decide +kernel

/-- `test_range_is_adjacent` (test/test_reference.py:377-398). -/
def test_range_is_adjacent : PM (List Nat) := do
  let e : Env := env
  let fails : List Nat := []
  let test_range := (← mkRange e [(.str ("Matt 1:10-15".toList))] .none .none none)
  let fails := fails ++ (← check 380 do return !(← PM.lift (BibleRange.isAdjacentV e (test_range) (.verse (← BibleVerse.ofValues uni e [(.str ("Matt 1:8".toList))] none)) none)))
  let fails := fails ++ (← check 381 do return (← PM.lift (BibleRange.isAdjacentV e (test_range) (.verse (← BibleVerse.ofValues uni e [(.str ("Matt 1:9".toList))] none)) none)))
  let fails := fails ++ (← check 383 do return !(← PM.lift (BibleRange.isAdjacentV e (test_range) (.range (← mkRange e [(.str ("Matt 1:5-8".toList))] .none .none none)) none)))
  let fails := fails ++ (← check 384 do return (← PM.lift (BibleRange.isAdjacentV e (test_range) (.range (← mkRange e [(.str ("Matt 1:5-9".toList))] .none .none none)) none)))
  let fails := fails ++ (← check 385 do return !(← PM.lift (BibleRange.isAdjacentV e (test_range) (.range (← mkRange e [(.str ("Matt 1:5-10".toList))] .none .none none)) none)))
  let fails := fails ++ (← check 386 do return !(← PM.lift (BibleRange.isAdjacentV e (test_range) (.range (← mkRange e [(.str ("Matt 1:5-11".toList))] .none .none none)) none)))
  let fails := fails ++ (← check 387 do return !(← PM.lift (BibleRange.isAdjacentV e (test_range) (.range (← mkRange e [(.str ("Matt 1:10-12".toList))] .none .none none)) none)))
  let fails := fails ++ (← check 388 do return !(← PM.lift (BibleRange.isAdjacentV e (test_range) (.range (← mkRange e [(.str ("Matt 1:11-14".toList))] .none .none none)) none)))
  let fails := fails ++ (← check 389 do return !(← PM.lift (BibleRange.isAdjacentV e (test_range) (.range (← mkRange e [(.str ("Matt 1:13-15".toList))] .none .none none)) none)))
  let fails := fails ++ (← check 390 do return !(← PM.lift (BibleRange.isAdjacentV e (test_range) (.range (← mkRange e [(.str ("Matt 1:10-15".toList))] .none .none none)) none)))
  let fails := fails ++ (← check 391 do return !(← PM.lift (BibleRange.isAdjacentV e (test_range) (.range (← mkRange e [(.str ("Matt 1:14-20".toList))] .none .none none)) none)))
  let fails := fails ++ (← check 392 do return !(← PM.lift (BibleRange.isAdjacentV e (test_range) (.range (← mkRange e [(.str ("Matt 1:15-20".toList))] .none .none none)) none)))
  let fails := fails ++ (← check 393 do return (← PM.lift (BibleRange.isAdjacentV e (test_range) (.range (← mkRange e [(.str ("Matt 1:16-20".toList))] .none .none none)) none)))
  let fails := fails ++ (← check 394 do return !(← PM.lift (BibleRange.isAdjacentV e (test_range) (.range (← mkRange e [(.str ("Matt 1:17-20".toList))] .none .none none)) none)))
  let fails := fails ++ (← check 396 do return (← PM.lift (BibleRange.isAdjacentV e (test_range) (.list (← RangeList.ofValues uni e [(.str ("Matt 1:16-20; Mark 2-4; Luke 6-8".toList))] none)) none)))
  let fails := fails ++ (← check 397 do return (← PM.lift (BibleRange.isAdjacentV e (test_range) (.list (← RangeList.ofValues uni e [(.str ("Matt 1:16-20; Mark 2-4; Matt 1:5-9".toList))] none)) none)))
  let fails := fails ++ (← check 398 do return !(← PM.lift (BibleRange.isAdjacentV e (test_range) (.list (← RangeList.ofValues uni e [(.str ("Matt 1:16-20; Mark 2-4; Matt 1:5-10".toList))] none)) none)))
  return fails

theorem test_range_is_adjacent_passes : (test_range_is_adjacent PState.init).1 = .ok [] := by decide +kernel

/-- `test_range_contains` (test/test_reference.py:400-426). -/
def test_range_contains : PM (List Nat) := do
  let e : Env := env
  let fails : List Nat := []
  let test_range := (← mkRange e [(.str ("Matt 2:20-3:7".toList))] .none .none none)
  let fails := fails ++ (← check 402 do return !(← PM.lift (BibleRange.containsV e (test_range) (.verse (← BibleVerse.ofValues uni e [(.str ("Matt 2:19".toList))] none)))))
  let fails := fails ++ (← check 403 do return (← PM.lift (BibleRange.containsV e (test_range) (.verse (← BibleVerse.ofValues uni e [(.str ("Matt 2:20".toList))] none)))))
  let fails := fails ++ (← check 404 do return (← PM.lift (BibleRange.containsV e (test_range) (.verse (← BibleVerse.ofValues uni e [(.str ("Matt 3:1".toList))] none)))))
  let fails := fails ++ (← check 405 do return (← PM.lift (BibleRange.containsV e (test_range) (.verse (← BibleVerse.ofValues uni e [(.str ("Matt 3:7".toList))] none)))))
  let fails := fails ++ (← check 406 do return !(← PM.lift (BibleRange.containsV e (test_range) (.verse (← BibleVerse.ofValues uni e [(.str ("Matt 3:8".toList))] none)))))
  let test_range := (← mkRange e [(.str ("Matt 1:10-15".toList))] .none .none none)
  let fails := fails ++ (← check 409 do return !(← PM.lift (BibleRange.containsV e (test_range) (.range (← mkRange e [(.str ("Matt 1:5-8".toList))] .none .none none)))))
  let fails := fails ++ (← check 410 do return !(← PM.lift (BibleRange.containsV e (test_range) (.range (← mkRange e [(.str ("Matt 1:5-9".toList))] .none .none none)))))
  let fails := fails ++ (← check 411 do return !(← PM.lift (BibleRange.containsV e (test_range) (.range (← mkRange e [(.str ("Matt 1:5-10".toList))] .none .none none)))))
  let fails := fails ++ (← check 412 do return !(← PM.lift (BibleRange.containsV e (test_range) (.range (← mkRange e [(.str ("Matt 1:5-11".toList))] .none .none none)))))
  let fails := fails ++ (← check 413 do return (← PM.lift (BibleRange.containsV e (test_range) (.range (← mkRange e [(.str ("Matt 1:10-12".toList))] .none .none none)))))
  let fails := fails ++ (← check 414 do return (← PM.lift (BibleRange.containsV e (test_range) (.range (← mkRange e [(.str ("Matt 1:11-14".toList))] .none .none none)))))
  let fails := fails ++ (← check 415 do return (← PM.lift (BibleRange.containsV e (test_range) (.range (← mkRange e [(.str ("Matt 1:13-15".toList))] .none .none none)))))
  let fails := fails ++ (← check 416 do return (← PM.lift (BibleRange.containsV e (test_range) (.range (← mkRange e [(.str ("Matt 1:10-15".toList))] .none .none none)))))
  let fails := fails ++ (← check 417 do return !(← PM.lift (BibleRange.containsV e (test_range) (.range (← mkRange e [(.str ("Matt 1:14-20".toList))] .none .none none)))))
  let fails := fails ++ (← check 418 do return !(← PM.lift (BibleRange.containsV e (test_range) (.range (← mkRange e [(.str ("Matt 1:15-20".toList))] .none .none none)))))
  let fails := fails ++ (← check 419 do return !(← PM.lift (BibleRange.containsV e (test_range) (.range (← mkRange e [(.str ("Matt 1:16-20".toList))] .none .none none)))))
  let fails := fails ++ (← check 420 do return !(← PM.lift (BibleRange.containsV e (test_range) (.range (← mkRange e [(.str ("Matt 1:17-20".toList))] .none .none none)))))
  let test_range := (← mkRange e [(.str ("Matt 4-8".toList))] .none .none none)
  let fails := fails ++ (← check 423 do return (← PM.lift (BibleRange.containsV e (test_range) (.list (← RangeList.ofValues uni e [(.str ("Matt 4:1-5; 6:4-6; 8:10-12".toList))] none)))))
  let fails := fails ++ (← check 424 do return !(← PM.lift (BibleRange.containsV e (test_range) (.list (← RangeList.ofValues uni e [(.str ("Matt 3:1-4:5; 6:4-6; 8:10-12".toList))] none)))))
  let fails := fails ++ (← check 425 do return !(← PM.lift (BibleRange.containsV e (test_range) (.list (← RangeList.ofValues uni e [(.str ("Matt 4:1-5; 6:4-9:1; 8:10-12".toList))] none)))))
  let fails := fails ++ (← check 426 do return !(← PM.lift (BibleRange.containsV e (test_range) (.list (← RangeList.ofValues uni e [(.str ("Matt 4:1-5; 6:4-6; 8-9:1".toList))] none)))))
  return fails

theorem test_range_contains_passes : (test_range_contains PState.init).1 = .ok [] := by decide +kernel

/-- `test_range_surrounds` (test/test_reference.py:428-456). -/
def test_range_surrounds : PM (List Nat) := do
  let e : Env := env
  let fails : List Nat := []
  let test_range := (← mkRange e [(.str ("Matt 1:10-15".toList))] .none .none none)
  let fails := fails ++ (← check 430 do return !(← PM.lift (BibleRange.surroundsV e (test_range) (.verse (← BibleVerse.ofValues uni e [(.str ("Matt 1:9".toList))] none)))))
  let fails := fails ++ (← check 431 do return !(← PM.lift (BibleRange.surroundsV e (test_range) (.verse (← BibleVerse.ofValues uni e [(.str ("Matt 1:10".toList))] none)))))
  let fails := fails ++ (← check 432 do return (← PM.lift (BibleRange.surroundsV e (test_range) (.verse (← BibleVerse.ofValues uni e [(.str ("Matt 1:11".toList))] none)))))
  let fails := fails ++ (← check 433 do return (← PM.lift (BibleRange.surroundsV e (test_range) (.verse (← BibleVerse.ofValues uni e [(.str ("Matt 1:14".toList))] none)))))
  let fails := fails ++ (← check 434 do return !(← PM.lift (BibleRange.surroundsV e (test_range) (.verse (← BibleVerse.ofValues uni e [(.str ("Matt 1:15".toList))] none)))))
  let fails := fails ++ (← check 435 do return !(← PM.lift (BibleRange.surroundsV e (test_range) (.verse (← BibleVerse.ofValues uni e [(.str ("Matt 1:16".toList))] none)))))
  let fails := fails ++ (← check 437 do return !(← PM.lift (BibleRange.surroundsV e (test_range) (.range (← mkRange e [(.str ("Matt 1:5-8".toList))] .none .none none)))))
  let fails := fails ++ (← check 438 do return !(← PM.lift (BibleRange.surroundsV e (test_range) (.range (← mkRange e [(.str ("Matt 1:5-9".toList))] .none .none none)))))
  let fails := fails ++ (← check 439 do return !(← PM.lift (BibleRange.surroundsV e (test_range) (.range (← mkRange e [(.str ("Matt 1:5-10".toList))] .none .none none)))))
  let fails := fails ++ (← check 440 do return !(← PM.lift (BibleRange.surroundsV e (test_range) (.range (← mkRange e [(.str ("Matt 1:5-11".toList))] .none .none none)))))
  let fails := fails ++ (← check 441 do return !(← PM.lift (BibleRange.surroundsV e (test_range) (.range (← mkRange e [(.str ("Matt 1:10-12".toList))] .none .none none)))))
  let fails := fails ++ (← check 442 do return (← PM.lift (BibleRange.surroundsV e (test_range) (.range (← mkRange e [(.str ("Matt 1:11-14".toList))] .none .none none)))))
  let fails := fails ++ (← check 443 do return !(← PM.lift (BibleRange.surroundsV e (test_range) (.range (← mkRange e [(.str ("Matt 1:13-15".toList))] .none .none none)))))
  let fails := fails ++ (← check 444 do return !(← PM.lift (BibleRange.surroundsV e (test_range) (.range (← mkRange e [(.str ("Matt 1:10-15".toList))] .none .none none)))))
  let fails := fails ++ (← check 445 do return !(← PM.lift (BibleRange.surroundsV e (test_range) (.range (← mkRange e [(.str ("Matt 1:14-20".toList))] .none .none none)))))
  let fails := fails ++ (← check 446 do return !(← PM.lift (BibleRange.surroundsV e (test_range) (.range (← mkRange e [(.str ("Matt 1:15-20".toList))] .none .none none)))))
  let fails := fails ++ (← check 447 do return !(← PM.lift (BibleRange.surroundsV e (test_range) (.range (← mkRange e [(.str ("Matt 1:16-20".toList))] .none .none none)))))
  let fails := fails ++ (← check 448 do return !(← PM.lift (BibleRange.surroundsV e (test_range) (.range (← mkRange e [(.str ("Matt 1:17-20".toList))] .none .none none)))))
  let test_range := (← mkRange e [(.str ("Matt 4-8".toList))] .none .none none)
  let fails := fails ++ (← check 451 do return (← PM.lift (BibleRange.surroundsV e (test_range) (.list (← RangeList.ofValues uni e [(.str ("Matt 4:2-5; 6:4-6; 8:10-33".toList))] none)))))
  let fails := fails ++ (← check 452 do return !(← PM.lift (BibleRange.surroundsV e (test_range) (.list (← RangeList.ofValues uni e [(.str ("Matt 4:1-5; 6:4-6; 8:10-33".toList))] none)))))
  let fails := fails ++ (← check 453 do return !(← PM.lift (BibleRange.surroundsV e (test_range) (.list (← RangeList.ofValues uni e [(.str ("Matt 4:2-5; 6:4-6; 8:10-34".toList))] none)))))
  let fails := fails ++ (← check 454 do return !(← PM.lift (BibleRange.surroundsV e (test_range) (.list (← RangeList.ofValues uni e [(.str ("Matt 4:2-5; 6:4-6; 8:10-33; 9:1".toList))] none)))))
  let fails := fails ++ (← check 455 do return !(← PM.lift (BibleRange.surroundsV e (test_range) (.list (← RangeList.ofValues uni e [(.str ("Matt 3:17; 4:2-5; 6:4-6; 8:10-33".toList))] none)))))
  let fails := fails ++ (← check 456 do return !(← PM.lift (BibleRange.surroundsV e (test_range) (.list (← RangeList.ofValues uni e [(.str ("Matt 4:2-5; 6:4-9:1; 8:10-33".toList))] none)))))
  return fails

theorem test_range_surrounds_passes : (test_range_surrounds PState.init).1 = .ok [] := by decide +kernel

end Bibleref.Tests

import Verif.Model.Basic

/-! UTF-8 in the standard library, as far as /repo/src/ext4/string.rs uses it: `String::from_utf8_lossy`
(library/alloc/src/string.rs), the iterator `Utf8Chunks` it is built on (library/core/src/str/lossy.rs)
and `String::from_utf8`.  A `str` is given by its bytes. -/

namespace MdRecover.Utf8

/-- `utf8_char_width` (library/core/src/str/validations.rs, the table `UTF8_CHAR_WIDTH`). -/
def width (b : Nat) : Nat :=
  if b < 0x80 then 1 else if b < 0xc2 then 0 else if b < 0xe0 then 2 else if b < 0xf0 then 3
  else if b < 0xf5 then 4 else 0

/-- `safe_get(xs, i)` (library/core/src/str/lossy.rs): 0 beyond the end. -/
def get (b : Bytes) (i : Nat) : Nat := (b[i]?.getD 0).toNat

/-- `x & 192 == TAG_CONT_U8` (library/core/src/str/lossy.rs). -/
def isCont (x : Nat) : Bool := x &&& 192 == 128

/-- The second byte of a sequence of three (library/core/src/str/lossy.rs, the first inner match). -/
def second3 (b x : Nat) : Bool :=
  (b == 0xe0 && (0xa0 ≤ x && x ≤ 0xbf)) || ((0xe1 ≤ b && b ≤ 0xec) && (0x80 ≤ x && x ≤ 0xbf)) ||
    (b == 0xed && (0x80 ≤ x && x ≤ 0x9f)) || ((0xee ≤ b && b ≤ 0xef) && (0x80 ≤ x && x ≤ 0xbf))

/-- The second byte of a sequence of four (library/core/src/str/lossy.rs, the second inner match). -/
def second4 (b x : Nat) : Bool :=
  (b == 0xf0 && (0x90 ≤ x && x ≤ 0xbf)) || ((0xf1 ≤ b && b ≤ 0xf3) && (0x80 ≤ x && x ≤ 0xbf)) ||
    (b == 0xf4 && (0x80 ≤ x && x ≤ 0x8f))

/-- One round of the loop of `Utf8Chunks::next` (library/core/src/str/lossy.rs) at the start of `b`,
which is not empty: the number of bytes inspected, and whether they are valid (otherwise the loop is
left). -/
def round (b : Bytes) : Nat × Bool :=
  if get b 0 < 128 then (1, true)
  else if width (get b 0) = 2 then
    if isCont (get b 1) then (2, true) else (1, false)
  else if width (get b 0) = 3 then
    if second3 (get b 0) (get b 1) then
      if isCont (get b 2) then (3, true) else (2, false)
    else (1, false)
  else if width (get b 0) = 4 then
    if second4 (get b 0) (get b 1) then
      if isCont (get b 2) then
        if isCont (get b 3) then (4, true) else (3, false)
      else (2, false)
    else (1, false)
  else (1, false)

/-- `REPLACEMENT` (library/alloc/src/string.rs): U+FFFD. -/
def replacement : Bytes := [0xef, 0xbf, 0xbd]

/-- `String::from_utf8_lossy` (library/alloc/src/string.rs): valid sequences are kept, and every
maximal invalid one is replaced.  `n` bounds the number of rounds; each takes at least a byte.
Simplification: chunks are not collected first; the result is the same. -/
def lossyFuel : Nat → Bytes → Bytes
  | 0, _ => []
  | n + 1, b =>
    if b = [] then []
    else (if (round b).2 then b.take (round b).1 else replacement) ++ lossyFuel n (b.drop (round b).1)

/-- `String::from_utf8_lossy` (library/alloc/src/string.rs). -/
def lossy (b : Bytes) : Bytes := lossyFuel b.length b

/-- Whether all rounds are valid; `n` bounds their number. -/
def validFuel : Nat → Bytes → Bool
  | 0, _ => true
  | n + 1, b => if b = [] then true else (round b).2 && validFuel n (b.drop (round b).1)

/-- `String::from_utf8` (library/alloc/src/string.rs, `run_utf8_validation` in
library/core/src/str/validations.rs, which accepts the same sequences).  Simplification: the error is
only told apart from success. -/
def fromUtf8 (b : Bytes) : Option Bytes := if validFuel b.length b then some b else none

end MdRecover.Utf8

import Verif.Proof.Bytes
import Verif.Props.Safety
/-
C48: what `Parse` does with the bytes it is given.
-/

namespace DDL.Props
open DDL Spec

/-- C48: every sequence of bytes is read as exactly one text; UTF-8 is read as the text it stands for. -/
theorem C48_text (b : List UInt8) : ∃ text, ReadAs b text ∧ (∀ text', ReadAs b text' → text' = text) ∧
    ∀ text', b = utf8 text' → text' = text :=
  ⟨Go.runes b, readAs_iff.2 rfl, fun _ h => (readAs_iff.1 h).symm, by
    rintro text' rfl; exact (runes_utf8 text').symm⟩

example : ReadAs (utf8 "é".toList ++ [0xFF, 0xC3, 0x22]) ['é', '�', '�', '"'] := readAs_iff.2 (by decide +kernel)

/-- C48: the result is the one for the text, in UTF-8. -/
theorem C48_bytes {b : List UInt8} {text : List Char} (hb : ReadAs b text) (d : Rdbms) (r : List Table × Option VErr) :
    ReturnsBytes Go.isNumeric b d r ↔ ∃ r', Returns Go.isNumeric text d r' ∧ r = utf8Result r' := by
  have he := fun n => parseBytesN_eq isNumeric_bytes n b d
  rw [readAs_iff.1 hb] at he
  constructor
  · rintro ⟨n, h⟩
    rw [he n] at h
    cases hx : parseN Go.isNumeric n text d with
    | ok a => rw [hx] at h; cases h; exact ⟨a, ⟨n, hx⟩, rfl⟩
    | err e => rw [hx] at h; cases h
    | panic => rw [hx] at h; cases h
    | timeout => rw [hx] at h; cases h
  · rintro ⟨r', ⟨n, h⟩, rfl⟩
    exact ⟨n, by rw [he n, h]; rfl⟩

/-- C48: `Parse` does not return for the bytes exactly if it does not for the text. -/
theorem C48_hangs {b : List UInt8} {text : List Char} (hb : ReadAs b text) (d : Rdbms) :
    HangsBytes Go.isNumeric b d ↔ Hangs Go.isNumeric text d := by
  have he := fun n => parseBytesN_eq isNumeric_bytes n b d
  rw [readAs_iff.1 hb] at he
  refine forall_congr' fun n => ?_
  rw [he n]
  cases parseN Go.isNumeric n text d with
  | timeout => exact ⟨fun _ => rfl, fun _ => rfl⟩
  | ok a => exact ⟨(nomatch ·), (nomatch ·)⟩
  | err e => exact ⟨(nomatch ·), (nomatch ·)⟩
  | panic => exact ⟨(nomatch ·), (nomatch ·)⟩

/-- C48: no bytes make `Parse` panic. -/
theorem C48_never_panics (b : List UInt8) (d : Rdbms) (n : Nat) : parseBytesN Go.isNumeric n b d ≠ .panic := by
  rw [parseBytesN_eq isNumeric_bytes]
  have := C01_never_panics Go.isNumeric n (Go.runes b) d
  cases h : parseN Go.isNumeric n (Go.runes b) d with
  | panic => exact absurd h this
  | ok a => exact (nomatch ·)
  | err e => exact (nomatch ·)
  | timeout => exact (nomatch ·)

/-- C48: `ParseForce` likewise. -/
theorem C48_force {b : List UInt8} {text : List Char} (hb : ReadAs b text) (r : List Table × Option VErr) :
    ForceReturnsBytes Go.isNumeric b r ↔ ∃ r', ForceReturns Go.isNumeric text r' ∧ r = utf8Result r' := by
  have he : ∀ n, parseForceBytesN Go.isNumeric n b = (parseForceN Go.isNumeric n text).map utf8Result := fun n => by
    rw [← readAs_iff.1 hb]
    exact parseForceBytesLoop_eq isNumeric_bytes n b _
  constructor
  · rintro ⟨n, h⟩
    rw [he n] at h
    cases hx : parseForceN Go.isNumeric n text with
    | ok a => rw [hx] at h; cases h; exact ⟨a, ⟨n, hx⟩, rfl⟩
    | err e => rw [hx] at h; cases h
    | panic => rw [hx] at h; cases h
    | timeout => rw [hx] at h; cases h
  · rintro ⟨r', ⟨n, h⟩, rfl⟩
    exact ⟨n, by rw [he n, h]; rfl⟩

/-- `é` in UTF-8, written with one character for each byte. -/
example : ReturnsBytes Go.isNumeric (utf8 "CREATE TABLE tt (\"é\" TEXT DEFAULT 'ü');".toList) .sqlite
    ([{ name := S "tt", columns := [{ name := ['Ã', '©'], dataType := { name := S "TEXT" }
                                      constraint := { default := .str ['Ã', '¼'] } }] }], none) :=
  ⟨200, by decide +kernel⟩

example : HangsBytes Go.isNumeric (utf8 "CREATE TABLE tt (aa TEXT REFERENCES \"é\".uu);".toList) .sqlite ↔
    Hangs Go.isNumeric "CREATE TABLE tt (aa TEXT REFERENCES \"é\".uu);".toList .sqlite := C48_hangs (readAs_utf8 _) _

/-- C48: the bytes of names are not kept: tables named by different bytes that are not UTF-8 are reported with the same name. -/
theorem C48_invalid_negation : ∃ a b : UInt8, a ≠ b ∧ ∃ r,
    ReturnsBytes Go.isNumeric (utf8 "CREATE TABLE \"".toList ++ [a] ++ utf8 "\" (aa TEXT);".toList) .sqlite (r, none) ∧
    ReturnsBytes Go.isNumeric (utf8 "CREATE TABLE \"".toList ++ [b] ++ utf8 "\" (aa TEXT);".toList) .sqlite (r, none) ∧
    r.map (·.name) = [['ï', '¿', '½']] :=
  ⟨0xFE, 0xFF, by decide,
    [{ name := ['ï', '¿', '½'], columns := [{ name := S "aa", dataType := { name := S "TEXT" } }] }],
    ⟨200, by decide +kernel⟩, ⟨200, by decide +kernel⟩, rfl⟩

end DDL.Props

import Verif.Proof.ErrFacts
/-
Building derivations.
-/

namespace DDL
open V Spec

theorem Kw.upper {k : String} {ks : List String} (h : k ∈ ks) : Kw ks (k.toList.map Char.toUpper) :=
  ⟨k, h, .inl rfl⟩

/-- A keyword in front. -/
theorem kw_intro {ks : List String} {t : Str} {r : List Str} (h : Kw ks t) : kw ks (t :: r) () r :=
  ⟨t, r, ⟨rfl, h⟩, rfl, rfl⟩

theorem notAt_cons {ks : List String} {t : Str} {r : List Str} (h : ¬ Kw ks t) :
    notAt ks (t :: r) () (t :: r) := ⟨rfl, by rintro _ _ ⟨⟩; exact h⟩

theorem optKw_none {ks : List String} {L : Lang β} {ts : List Str} (h : notAt ks ts () ts) :
    optKw ks L ts none ts := .inr ⟨(), ts, h, rfl, rfl⟩

theorem optKw_some {ks : List String} {L : Lang β} {t : Str} {ts r : List Str} {v : β} (h : Kw ks t)
    (hL : L ts v r) : optKw ks L (t :: ts) (some v) r :=
  .inl ⟨(), ts, kw_intro h, v, r, hL, rfl, rfl⟩

theorem optWord_none {ks : List String} {ts : List Str} (h : notAt ks ts () ts) :
    optWord ks ts false ts := .inr ⟨(), ts, h, rfl, rfl⟩

theorem optWord_some {ks : List String} {t : Str} {ts : List Str} (h : Kw ks t) :
    optWord ks (t :: ts) true ts := .inl ⟨(), ts, kw_intro h, rfl, rfl⟩

theorem name_intro {d : Rdbms} {t : Str} {r : List Str} (h : Name d t) : name d (t :: r) t r :=
  ⟨rfl, h⟩

theorem qname_plain {d : Rdbms} {t : Str} {r : List Str} (h : Name d t) (hn : notAt ["."] r () r) :
    qname d (t :: r) ⟨none, t⟩ r :=
  ⟨t, r, name_intro h, none, r, optKw_none hn, rfl, rfl⟩

theorem kw_iff {ks : List String} {t : Str} : Kw ks t ↔ isKw ks t = true := isKw_kw.symm

/-- `decide` on keywords. -/
instance (ks : List String) (t : Str) : Decidable (Kw ks t) :=
  decidable_of_iff _ isKw_kw

theorem many_nil {ks : List String} {L : Lang β} {ts : List Str} (h : notAt ks ts () ts) :
    Many ks L ts [] ts := .nil h

theorem colCons_nil {ks : List String} {L : Lang ColCon} {ts : List Str} (h : notAt ks ts () ts) :
    colCons ks L ts [] ts := ⟨.nil h, .nil⟩

theorem sep_one {L : Lang β} {ts rest : List Str} {v : β} (h : L ts v rest)
    (hn : notAt [","] rest () rest) : Sep L ts [v] rest := .one h hn

end DDL

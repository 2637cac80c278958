import Verif.Spec.Source
import Verif.Proof.GoTop
/-
From the meaning of a function with fuel enough to its meaning for every fuel.
-/

namespace DDL.Src
open DDL

theorem same_of [CaseMap] {isNum : Str → Bool} {f : Fn} {args : List Val} {R : List Table × Option VErr → Prop} {H : Prop}
    (hu : ∀ r r', R r → R r' → r = r') (hd : ∀ r, R r → ¬ H)
    (h : (∃ r, R r ∧ go isNum f args [] = .ok (encResult r) [] []) ∨ (H ∧ go isNum f args [] = .timeout)) :
    Same (source isNum f args) R H := by
  have up : ∀ k, source isNum f args k = .timeout ∨ source isNum f args k = go isNum f args [] := fun k => low isNum k rfl
  have reach : go isNum f args [] ≠ .timeout → ∃ k, source isNum f args k = go isNum f args [] := fun hne =>
    (lim_reached ((env_chain isNum).out f args []) hne).imp fun k hk => hk k (Nat.le_refl k)
  rcases h with ⟨r, hr, hg⟩ | ⟨hh, hg⟩
  · obtain ⟨k0, h0⟩ := reach (by rw [hg]; exact fun e => nomatch e)
    refine ⟨fun r' => ⟨fun ⟨k, hk⟩ => ?_, fun h' => ?_⟩, ⟨fun h' => ?_, fun h' => absurd h' (hd r hr)⟩, fun k => ?_, fun k m h hk => ?_⟩
    · rcases up k with e | e
      · rw [e] at hk; exact nomatch hk
      · rw [e, hg] at hk
        injection hk with hk
        rw [← encResult_inj _ _ hk]
        exact hr
    · rw [hu _ _ h' hr]
      exact ⟨k0, h0.trans hg⟩
    · exact nomatch (h' k0).symm.trans (h0.trans hg)
    · exact (up k).imp id fun e => ⟨r, e.trans hg⟩
    · have := IsChain.le ((env_chain isNum).out f args []) h
      rcases this with e | e
      · exact absurd e hk
      · exact e.symm
  · have dead : ∀ k, source isNum f args k = .timeout := fun k => (up k).elim id fun e => e.trans hg
    refine ⟨fun r' => ⟨fun ⟨k, hk⟩ => ?_, fun h' => absurd hh (hd r' h')⟩, ⟨fun _ => hh, fun _ => dead⟩, fun k => .inl (dead k),
      fun k m h hk => absurd (dead k) hk⟩
    rw [dead k] at hk
    exact nomatch hk

theorem parse_same [CaseMap] (isNum : Str → Bool) (ddl : Str) (d : Rdbms) :
    (∃ r, Returns isNum ddl d r ∧ go isNum .dp_Parse [.str ddl, .rdbms d] [] = .ok (encResult r) [] []) ∨
    (Hangs isNum ddl d ∧ go isNum .dp_Parse [.str ddl, .rdbms d] [] = .timeout) := by
  rcases returns_or_hangs isNum ddl d with ⟨r, h⟩ | h
  · exact .inl ⟨r, h, go_Parse isNum d ddl r h⟩
  · exact .inr ⟨h, dead_Parse isNum d ddl h⟩

end DDL.Src

import Verif.Proofs.Encoding.Write

/-! Types that are encoded as they should, in any position. -/

namespace Asn1go.Enco

open Asn1go Spec CG

variable {u : Casing} {l : List MAssignment} {d : Int} {r : Str} {f : GoFile} {strict : Bool} {op : Open} {s : Str → Prop}

/-- The type is encoded as it should, in some position or as type of a component. -/
def Shape (strict : Bool) (op : Open) (l : List MAssignment) (d : Int) (r : Str) (s : Str → Prop) (t : MTy) : Prop :=
  (∃ pos, EncOk strict op l d r s pos t) ∨ EncOkTagged strict op l d r s t

theorem fits_part {t t' : MTy} {x y : AsnVal} (h : Fits l r t x) (hp : ∀ t'' z, Seen l t' y t'' z → Seen l t x t'' z) : Fits l r t' y :=
  fun _ _ hz => h _ _ (hp _ _ hz)

theorem write_mem {x : Member} : ∀ {a : List MComponent}, EncOkMembers strict op l d r s a → x ∈ members a →
    EncOkTagged strict op l d r s x.type ∧ DefaultOk strict l r x
  | [], _, hx => by simp [members] at hx
  | .named (.mk n t) o df :: a, h, hx => by
    rw [EncOkMembers] at h
    simp only [members, List.filterMap_cons, List.mem_cons] at hx
    rcases hx with rfl | hx
    · exact ⟨h.1, h.2.1⟩
    · exact write_mem h.2.2.2 hx
  | .componentsOf _ :: a, h, hx => by
    rw [EncOkMembers] at h
    · exact write_mem h (by simpa [members] using hx)
    · simp
  | .nil :: a, h, hx => by
    rw [EncOkMembers] at h
    · exact write_mem h (by simpa [members] using hx)
    · simp

theorem write_append (a b : List MComponent) : members (a ++ b) = members a ++ members b := by
  simp [members]

theorem encOk_unconstrained {t : MTy} {pos : Position} (h : EncOk strict op l d r s pos (unconstrained t)) : EncOk strict op l d r s pos t := by
  induction t using unconstrained.induct with
  | case1 t c ih => rw [unconstrained] at h; rw [EncOk]; exact ih h
  | case2 t hn =>
    rw [unconstrained] at h
    · exact h
    · exact hn

theorem shape_timeRef {a : Str} (h : TimeRef l a) {t : MTy} (ha : Assigned l a t) : EncOk strict op l d r s .component t := by
  cases h with
  | here h => exact absurd ha (h t)
  | ref _ b t' h1 h2 h3 =>
    cases assigned_unique h1 ha
    refine encOk_unconstrained ?_
    rw [h2, EncOk]
    exact .inr ⟨rfl, h3⟩

end Asn1go.Enco

import Verif.Model.Listing
import Verif.Model.Parser

/-! Lookup in the trees of `Verif/Model/Tables.lean` is indexing in the lists printed in y.go. -/

namespace Asn1go

/-- The numbers of entries in the tree are right. -/
def Tab.wf : Tab → Bool
  | .l _ => true
  | .n k a b => a.wf && b.wf && k == a.toList.length

theorem Tab.get?_eq : ∀ {t : Tab}, t.wf = true → ∀ i, t.get? i = t.toList[i]?
  | .l v, _, i => by
    unfold Tab.get? Tab.toList
    cases i <;> simp
  | .n k a b, h, i => by
    simp only [Tab.wf, Bool.and_eq_true, beq_iff_eq] at h
    obtain ⟨⟨ha, hb⟩, rfl⟩ := h
    unfold Tab.get?
    simp only [Tab.toList]
    split
    · rename_i hi
      rw [Tab.get?_eq ha, List.getElem?_append_left hi]
    · rename_i hi
      rw [Tab.get?_eq hb, List.getElem?_append_right (by omega)]

/-- Indexing a Go array of which the list has the entries: out of range is a panic. -/
def listAt (l : List Int) (i : Int) : Except Abort Int :=
  if i < 0 then .error .panic
  else match l[i.toNat]? with
    | some v => .ok v
    | none => .error .panic

theorem Tab.at_eq {t : Tab} {l : List Int} (hw : t.wf = true) (hl : t.toList = l) (i : Int) : t.at i = listAt l i := by
  unfold Tab.at listAt
  rw [Tab.get?_eq hw, hl]
  rfl

theorem yyExca_listed : Tab.yyExca.toList = Listing.yyExca := by decide +kernel
theorem yyAct_listed (i : Int) : Tab.yyAct.at i = listAt Listing.yyAct i := Tab.at_eq (by decide +kernel) (by decide +kernel) i
theorem yyPact_listed (i : Int) : Tab.yyPact.at i = listAt Listing.yyPact i := Tab.at_eq (by decide +kernel) (by decide +kernel) i
theorem yyPgo_listed (i : Int) : Tab.yyPgo.at i = listAt Listing.yyPgo i := Tab.at_eq (by decide +kernel) (by decide +kernel) i
theorem yyR1_listed (i : Int) : Tab.yyR1.at i = listAt Listing.yyR1 i := Tab.at_eq (by decide +kernel) (by decide +kernel) i
theorem yyR2_listed (i : Int) : Tab.yyR2.at i = listAt Listing.yyR2 i := Tab.at_eq (by decide +kernel) (by decide +kernel) i
theorem yyChk_listed (i : Int) : Tab.yyChk.at i = listAt Listing.yyChk i := Tab.at_eq (by decide +kernel) (by decide +kernel) i
theorem yyDef_listed (i : Int) : Tab.yyDef.at i = listAt Listing.yyDef i := Tab.at_eq (by decide +kernel) (by decide +kernel) i
theorem yyTok1_listed (i : Int) : Tab.yyTok1.at i = listAt Listing.yyTok1 i := Tab.at_eq (by decide +kernel) (by decide +kernel) i
theorem yyTok2_listed (i : Int) : Tab.yyTok2.at i = listAt Listing.yyTok2 i := Tab.at_eq (by decide +kernel) (by decide +kernel) i

end Asn1go

import Verif.Props.Encoding

/-! A program that decides that the names of a module are proper. -/

namespace Asn1go.Props

open Spec CG Enco

/-- An ASN.1 name in ASCII that starts with a capital letter, or not. -/
def nameCheck (upper : Bool) (s : Str) : Bool :=
  (s.head?.map asciiUnicode.isLetter == some true) && (s.all fun c => asciiUnicode.isLetter c || asciiUnicode.isDigit c || c = '-') &&
    decide (s.getLast? ≠ some '-') && decide (¬ (['-', '-'] <:+: s)) && (s.all fun c => c.toNat < 128) && decide (s.head?.map asciiUnicode.isUpper = some upper)

/-- The names of the components, at any depth; the fuel must be at least the depth. -/
def membersCheck : Nat → MTy → Bool
  | 0, _ => false
  | n + 1, .sequence a b => decide ((members (a ++ b)).map Member.name).Nodup && (members (a ++ b)).all fun x => nameCheck false x.name && membersCheck n x.type
  | n + 1, .set a b => decide ((members (a ++ b)).map Member.name).Nodup && (members (a ++ b)).all fun x => nameCheck false x.name && membersCheck n x.type
  | n + 1, .sequenceOf t => membersCheck n t
  | n + 1, .setOf t => membersCheck n t
  | n + 1, .tagged _ t _ _ => membersCheck n t
  | n + 1, .constrained t _ => membersCheck n t
  | n + 1, .choice [.mk _ t] _ => membersCheck n t
  | _ + 1, _ => true

/-- One assignment. -/
def assignmentCheck (fuel : Nat) : MAssignment → Bool
  | .type _ t => membersCheck fuel t && match removeWrapperTypes t with
    | .integer nums => decide (nums.map NamedNumber.name).Nodup && nums.all fun n => nameCheck false n.name
    | _ => true
  | _ => true

/-- The whole module. -/
def namesCheck (fuel : Nat) (l : List MAssignment) : Bool :=
  decide (typeNames l).Nodup && decide (valueNames l).Nodup && (typeNames l).all (nameCheck true) && (valueNames l).all (nameCheck false) &&
    l.all (assignmentCheck fuel) && ((typeNames l).all fun r => decide (r ++ c! "SET" ∉ typeNames l)) &&
    (typeNames l).all fun r => decide (r ≠ c! "GeneralizedTime" ∧ r ≠ c! "UTCTime")

theorem upper_check {s : Str} (h : nameCheck true s = true) : UpperName asciiCasing s := by
  simp only [nameCheck, Bool.and_eq_true, decide_eq_true_eq, beq_iff_eq] at h
  obtain ⟨⟨⟨⟨⟨h1, h2⟩, h3⟩, h4⟩, h5⟩, h6⟩ := h
  refine upperName_of ?_ h2 h3 h4 h5 h6
  cases s with
  | nil => simp at h1
  | cons c cs => exact ⟨c, cs, rfl, by simpa using h1⟩

theorem lower_check {s : Str} (h : nameCheck false s = true) : LowerName asciiCasing s := by
  simp only [nameCheck, Bool.and_eq_true, decide_eq_true_eq, beq_iff_eq] at h
  obtain ⟨⟨⟨⟨⟨h1, h2⟩, h3⟩, h4⟩, h5⟩, h6⟩ := h
  refine lowerName_of ?_ h2 h3 h4 h5 h6
  cases s with
  | nil => simp at h1
  | cons c cs => exact ⟨c, cs, rfl, by simpa using h1⟩

theorem members_check {l : List MAssignment} {t t' : MTy} (h : Inside l t t') : ∀ {fuel : Nat}, membersCheck fuel t = true → ∃ n, membersCheck n t' = true := by
  induction h with
  | here => exact fun h => ⟨_, h⟩
  | sequence a b x t hx _ ih =>
    intro fuel h
    cases fuel with
    | zero => simp [membersCheck] at h
    | succ n =>
      simp only [membersCheck, Bool.and_eq_true, List.all_eq_true] at h
      exact ih (h.2 x hx).2
  | set a b x t hx _ ih =>
    intro fuel h
    cases fuel with
    | zero => simp [membersCheck] at h
    | succ n =>
      simp only [membersCheck, Bool.and_eq_true, List.all_eq_true] at h
      exact ih (h.2 x hx).2
  | sequenceOf _ _ _ ih => intro fuel h; cases fuel with | zero => simp [membersCheck] at h | succ n => exact ih (by simpa only [membersCheck] using h)
  | setOf _ _ _ ih => intro fuel h; cases fuel with | zero => simp [membersCheck] at h | succ n => exact ih (by simpa only [membersCheck] using h)
  | tagged _ _ _ _ _ _ ih => intro fuel h; cases fuel with | zero => simp [membersCheck] at h | succ n => exact ih (by simpa only [membersCheck] using h)
  | constrained _ _ _ _ ih => intro fuel h; cases fuel with | zero => simp [membersCheck] at h | succ n => exact ih (by simpa only [membersCheck] using h)
  | choice _ _ _ _ _ _ ih => intro fuel h; cases fuel with | zero => simp [membersCheck] at h | succ n => exact ih (by simpa only [membersCheck] using h)

/-- What the program accepts has proper names. -/
theorem namesCheck_sound {fuel : Nat} {l : List MAssignment} (h : namesCheck fuel l = true) : NamesOk asciiCasing l := by
  simp only [namesCheck, Bool.and_eq_true, decide_eq_true_eq, List.all_eq_true] at h
  obtain ⟨⟨⟨⟨⟨⟨h1, h2⟩, h3⟩, h4⟩, h5⟩, h6⟩, h7⟩ := h
  have key : ∀ r t, .type r t ∈ l → membersCheck fuel t = true ∧ ∀ nums, Core t (.integer nums) →
      (nums.map NamedNumber.name).Nodup ∧ ∀ n ∈ nums, nameCheck false n.name = true := by
    intro r t hm
    have := h5 _ hm
    simp only [assignmentCheck, Bool.and_eq_true] at this
    refine ⟨this.1, fun nums hc => ?_⟩
    have h8 := this.2
    rw [core_iff.1 hc] at h8
    simpa only [Bool.and_eq_true, decide_eq_true_eq, List.all_eq_true] using h8
  refine ⟨⟨h1, h2, fun r hr => upper_check (h3 r hr), fun r hr => lower_check (h4 r hr), fun r t nums hm hc => ((key r t hm).2 nums hc).1,
    fun r t nums hm hc n hn => lower_check (((key r t hm).2 nums hc).2 n hn)⟩, fun r t hm _ => h6 r ?_, fun a ha => ?_, fun a t hm x y hi => ?_⟩
  · exact List.mem_filterMap.2 ⟨_, hm, rfl⟩
  · rintro (h | h)
    · exact (h7 a ha).1 h
    · exact (h7 a ha).2 h
  · rcases hi with hi | hi <;> obtain ⟨n, hn⟩ := members_check hi (key a t hm).1 <;> cases n with
    | zero => simp [membersCheck] at hn
    | succ n =>
      simp only [membersCheck, Bool.and_eq_true, decide_eq_true_eq, List.all_eq_true] at hn
      exact ⟨hn.1, fun x hx => lower_check (hn.2 x hx).1⟩

end Asn1go.Props

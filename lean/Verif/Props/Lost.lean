import Verif.Proofs.Encoding.Lost4
import Verif.Props.Encoding
import Verif.Props.Raw

/-! Which encodings are wrong: for every module, not only for examples (C75, C76).  The theorems speak of BER, or of DER if `strict`. -/

namespace Asn1go.Props

open Spec CG Enco

/-! ### Types on their own -/

/-- Tags of assigned types, of elements and of alternatives are never written: what is written is an encoding of no value of the type. -/
theorem C75_tag_never (u : Casing) (strict : Bool) (l : List MAssignment) (d : Int) (t : MTy) (g : Tag DefinedValue) (t' : MTy) (kind : Int) (b : Bool)
    (ht : NamedBy l t (.tagged g t' kind b)) (hg : Spec.classOf g.cls ≠ 0) (v : GoVal) (bs : Bytes) (hv : NotRaw v) (h : marshal u v = some bs) (x : AsnVal) :
    ¬ Encodes strict l d t x bs := by
  rw [named_encodes ht]
  intro he
  obtain ⟨n, k, c, h1, h2, -⟩ := right_tag h hv he
  obtain ⟨m, h3, h4⟩ := tagged_enc h2
  rw [AsnTag.mk.injEq] at h4
  exact hg h4.1.symm

/-- SET types are never written as such, but for components. -/
theorem C75_set_never (u : Casing) (strict : Bool) (l : List MAssignment) (d : Int) (r : Str) (f : GoFile) (t : MTy) (c e : List MComponent)
    (ht : NamedBy l t (.set c e)) (v : GoVal) (x : AsnVal) (hm : Stands strict u l d r f t v x) (bs : Bytes) (h : marshal u v = some bs) (y : AsnVal) :
    ¬ Encodes strict l d t y bs := by
  rw [named_encodes ht]
  intro he
  have hm := named_means ht hm
  cases hm with
  | set _ _ fs vs _ =>
    obtain ⟨n, k, c, h1, h2, -⟩ := right_tag h (by intro _ _ _ _ _ h; cases h) he
    cases h1
    generalize hq : (⟨0, valueTag {} 16 (GoVal.struct fs).unboxed⟩ : AsnTag) = q at h2
    cases h2
    cases hq

theorem printable_iff (c : Char) : printableChar c = true ↔ c ∈ PrintableChars := by
  refine ⟨fun h => ?_, fun h => (printable_chars c h).1⟩
  have key : ∀ n < 128, printableChar (Char.ofNat n) = true → Char.ofNat n ∈ PrintableChars := by decide +kernel
  have hc : c.toNat < 128 := by
    simp only [printableChar, Bool.or_eq_true, Bool.and_eq_true, decide_eq_true_eq, Char.le_def, beq_iff_eq, UInt32.le_iff_toNat_le] at h
    have e1 : 'z'.val.toNat = 122 := rfl
    have e2 : 'Z'.val.toNat = 90 := rfl
    have e3 : '9'.val.toNat = 57 := rfl
    have e4 : ')'.val.toNat = 41 := rfl
    have e5 : '/'.val.toNat = 47 := rfl
    have e6 : c.toNat = c.val.toNat := rfl
    rcases h with (((((((h | h) | h) | h) | h) | h) | h) | h) | h
    all_goals first
      | omega
      | (subst h; decide)
  have := key c.toNat hc
  rw [Char.ofNat_toNat] at this
  exact this h

theorem all_printable (s : Str) : s.all printableChar = true ↔ ∀ c ∈ s, c ∈ PrintableChars := by
  rw [List.all_eq_true]
  exact forall_congr' fun c => imp_congr_right fun _ => printable_iff c

/-- Strings, but for those of components, are written rightly exactly if they are PrintableStrings, or UTF8Strings with other characters. -/
theorem C75_string_exact (u : Casing) (strict : Bool) (l : List MAssignment) (d : Int) (r : Str) (f : GoFile) (t : MTy) (k : Int)
    (ht : NamedBy l t (.restrictedString k)) (v : GoVal) (s : Str) (hm : Stands strict u l d r f t v (.string s)) (bs : Bytes) (h : marshal u v = some bs)
    (hl : bs.length ≤ 9223372036854775807) :
    Encodes strict l d t (.string s) bs ↔ k = Tok.PrintableString ∨ (k = Tok.UTF8String ∧ ∃ c ∈ s, c ∉ PrintableChars) := by
  rw [named_encodes ht]
  have hm := named_means ht hm
  cases hm with
  | string _ tag ok enc _ hk hc =>
    obtain ⟨n, k', body, h1, h2, h3⟩ := written h (by intro _ _ _ _ _ h; cases h)
    have hub : (GoVal.str s).unboxed = .str s := rfl
    rw [hub] at h1 h2 h3
    cases h1
    rw [makeBody, encodeString] at h2
    have h2 : stringBytes s = body := by simpa using h2
    subst h2
    have hvt : valueTag {} 19 (.str s) = if s.all printableChar then 19 else 12 := rfl
    rw [hvt] at h3
    have hl' : (stringBytes s).length ≤ maxLength := by
      rw [h3, List.length_append] at hl
      unfold maxLength
      omega
    have hen := header_spec 0 (if s.all printableChar then 19 else 12) false (stringBytes s) (by omega) hl'
    rw [← h3] at hen
    constructor
    · rintro ⟨tag', k', c', h4, h5⟩
      cases h4 with
      | string _ tag' ok' enc' _ hk' hc' =>
        obtain ⟨h6, -, h7⟩ := encoding_inj h5 hen (by simp) (by simp)
        rw [AsnTag.mk.injEq] at h6
        have h6 := h6.2
        cases hk' with
        | ia5 => split at h6 <;> omega
        | visible => split at h6 <;> omega
        | printable => exact .inl rfl
        | numeric => split at h6 <;> omega
        | utf8 =>
          split at h6
          · omega
          · next hp =>
            refine .inr ⟨rfl, ?_⟩
            rw [all_printable] at hp
            simpa only [not_forall, exists_prop] using hp
    · intro h4
      refine ⟨_, _, _, ?_, hen⟩
      rcases h4 with rfl | ⟨rfl, h4⟩
      · generalize hq : Tok.PrintableString = q at hk
        cases hk with
        | printable =>
          rw [if_pos ((all_printable s).2 hc), stringBytes_ascii fun c h => (printable_chars c (hc c h)).2]
          exact .string _ _ _ _ _ .printable hc
        | _ => exact absurd hq (by decide)
      · rw [if_neg (fun hp => by obtain ⟨c, h5, h6⟩ := h4; exact h6 ((all_printable s).1 hp c h5))]
        exact .string _ _ _ _ _ .utf8 (fun _ _ => trivial)

/-- GeneralizedTime, but for components, is written rightly exactly if the year cannot be told in a UTCTime. -/
theorem C75_time_exact (u : Casing) (strict : Bool) (l : List MAssignment) (d : Int) (r : Str) (f : GoFile) (a : Str) (ha : TimeRef l a) (v : GoVal) (y : AsnTime)
    (hm : Stands strict u l d r f (.ref a) v (.time y)) (bs : Bytes) (h : marshal u v = some bs) (hl : bs.length ≤ 9223372036854775807) :
    Encodes strict l d (.ref a) (.time y) bs ↔ y.year < 1950 ∨ 2050 ≤ y.year := by
  obtain ⟨t, h1, rfl, h2⟩ := time_ref (strict := strict) (d := d) ha hm
  obtain ⟨hna, hnt⟩ := named_time ha
  have hy : y = t := by
    have := named_means hna hm
    generalize hq : c! "GeneralizedTime" = q at this
    generalize hv : GoVal.time ⟨t.year, t.month, t.day, t.hour, t.minute, t.second, 0⟩ = v at this
    cases this with
    | time t' h3 h4 =>
      simp only [GoVal.time.injEq, GoTime.mk.injEq, Int.natCast_inj] at hv
      obtain ⟨y1, y2, y3, y4, y5, y6⟩ := y
      obtain ⟨t1, t2, t3, t4, t5, t6⟩ := t
      simp only at hv
      obtain ⟨rfl, rfl, rfl, rfl, rfl, rfl, -⟩ := hv
      rfl
    | ref _ t' _ _ h3 _ => subst hq; exact absurd h3 (hnt _)
  subst hy
  obtain ⟨n, k', body, h3, h4, h5⟩ := written h (by intro _ _ _ _ _ h; cases h)
  have hub : (GoVal.time ⟨y.year, y.month, y.day, y.hour, y.minute, y.second, 0⟩).unboxed = .time ⟨y.year, y.month, y.day, y.hour, y.minute, y.second, 0⟩ := rfl
  rw [hub] at h3 h4 h5
  cases h3
  have ho : outsideUTCRange ⟨y.year, y.month, y.day, y.hour, y.minute, y.second, 0⟩ = true ↔ y.year < 1950 ∨ 2050 ≤ y.year := by
    simp only [outsideUTCRange, Bool.or_eq_true, decide_eq_true_eq]
    omega
  rw [← ho]
  constructor
  · rintro ⟨tag, k, c, h6, h7⟩
    rw [named_enc hna] at h6
    generalize hq : c! "GeneralizedTime" = q at h6
    cases h6 with
    | time _ _ _ =>
      obtain ⟨h8, -⟩ := first_tag h7 (by simp) (valueTag_small (k := false) rfl) h5
      rw [AsnTag.mk.injEq, valueTag] at h8
      by_contra hno
      rw [Bool.not_eq_true] at hno
      rw [hno] at h8
      exact absurd h8.2 (by decide)
    | ref _ t' _ _ _ _ h8 _ => subst hq; exact absurd h8 (hnt _)
  · intro hout
    rw [makeBody] at h4
    simp only [hout, Bool.or_true, if_true] at h4
    rw [encodeTime_spec h1, Option.some.injEq] at h4
    subst h4
    have hvt : valueTag {} 23 (.time ⟨y.year, y.month, y.day, y.hour, y.minute, y.second, 0⟩) = 24 := by rw [valueTag, hout]; rfl
    rw [hvt] at h5
    refine ⟨_, _, _, h2, ?_⟩
    rw [h5]
    refine header_spec 0 24 false _ (by omega) ?_
    rw [h5, List.length_append] at hl
    unfold maxLength
    omega

/-! ### Lists -/

/-- A SEQUENCE OF is written rightly exactly if each element is, and its Go type is not named as a SET type. -/
theorem C75_sequence_of (u : Casing) (strict : Bool) (l : List MAssignment) (d : Int) (r : Str) (f : GoFile) (t t' : MTy) (ht : NamedBy l t (.sequenceOf t'))
    (v : GoVal) (xs : List AsnVal) (hm : Stands strict u l d r f t v (.list xs)) (bs : Bytes) (h : marshal u v = some bs) (hl : bs.length ≤ 9223372036854775807) :
    ∃ n z vs, v = .slice n z vs ∧ (Encodes strict l d t (.list xs) bs ↔ ¬ c! "SET" <:+ n ∧ List.Forall₂ (RightAlone strict u l d t') vs xs) := by
  have hm := named_means ht hm
  cases hm with
  | sequenceOf _ n z vs _ he =>
    refine ⟨n, z, vs, rfl, ?_⟩
    rw [named_encodes ht]
    exact sequenceOf_iff h (elems_sound (fun _ _ _ => means_sound) he) hl

/-- A SET OF is written rightly exactly if each element is, in some order, and its Go type is named as a SET type. -/
theorem C75_set_of (u : Casing) (strict : Bool) (l : List MAssignment) (d : Int) (r : Str) (f : GoFile) (t t' : MTy) (ht : NamedBy l t (.setOf t'))
    (v : GoVal) (xs : List AsnVal) (hm : Stands strict u l d r f t v (.list xs)) (bs : Bytes) (h : marshal u v = some bs) (hl : bs.length ≤ 9223372036854775807) :
    ∃ n z vs, v = .slice n z vs ∧ (Encodes strict l d t (.list xs) bs ↔
      c! "SET" <:+ n ∧ ∃ xs', xs.Perm xs' ∧ List.Forall₂ (RightAlone strict u l d t') vs xs') := by
  have hm := named_means ht hm
  cases hm with
  | setOf _ n z vs _ he =>
    refine ⟨n, z, vs, rfl, ?_⟩
    rw [named_encodes ht]
    exact setOf_iff h (elems_sound (fun _ _ _ => means_sound) he) hl

/-- A SEQUENCE OF types that make the names of SET types, assigned, is never written as such, but as a SET OF. -/
theorem C75_sequence_of_never (u : Casing) (fuel : Nat) (p : GenParams) (m : Module) (f : GoFile) (h : generateFile u fuel p m = some (.ok f))
    (hn : NamesOk u m.moduleBody.assignmentList) (strict : Bool) (a : Str) (t : MTy) (ha : Assigned m.moduleBody.assignmentList a (.sequenceOf t))
    (ht : MarksSet m.moduleBody.assignmentList t) (v : GoVal) (hty : Typed f (.ident (goifyName u a)) v) (xs : List AsnVal)
    (hm : Stands strict u m.moduleBody.assignmentList m.tagDefault p.integerRepr f (.ref a) v (.list xs)) (bs : Bytes) (hb : marshal u v = some bs)
    (hl : bs.length ≤ 9223372036854775807) : ¬ Encodes strict m.moduleBody.assignmentList m.tagDefault (.ref a) (.list xs) bs := by
  have cx : Ctx u m.moduleBody.assignmentList m.tagDefault p.integerRepr f false Open.none (fun _ => False) := context h hn (fun _ h => h.elim)
  obtain ⟨e, h1, h2⟩ := typed_assigned cx ha hty
  obtain ⟨v0, n0, h3, h4⟩ := h2.1 ⟨rfl, .sequenceOf _ ht⟩
  obtain ⟨n, z, vs, h5, h6⟩ := C75_sequence_of u strict _ _ _ f _ t (.ref _ _ _ ha (.here _)) v xs hm bs hb hl
  rw [h6]
  rintro ⟨h7, -⟩
  rw [h5] at h4
  cases v0 <;> simp only [GoVal.named, reduceCtorEq] at h4
  rw [GoVal.slice.injEq] at h4
  exact h7 (h4.1 ▸ List.suffix_append _ _)

/-- Elements that are SET OF types, not told by a reference, are never written as such: no list with elements is written rightly.  The Go value
is of the Go type of the list, perhaps under another name. -/
theorem C75_set_of_element_never (u : Casing) (strict : Bool) (l : List MAssignment) (d : Int) (r : Str) (f : GoFile) (t t' t'' : MTy)
    (ht : NamedBy l t (.sequenceOf t')) (ht' : unconstrained t' = .setOf t'') (v : GoVal) (hty : HasGoType u l d r f (.sequenceOf t') (v.named [])) (x : AsnVal)
    (xs : List AsnVal) (hm : Stands strict u l d r f t v (.list (x :: xs))) (bs : Bytes) (h : marshal u v = some bs) (hl : bs.length ≤ 9223372036854775807) :
    ¬ Encodes strict l d t (.list (x :: xs)) bs := by
  have hm' := named_means ht hm
  cases hm' with
  | sequenceOf _ n z vs _ he =>
    obtain ⟨_, _, _, h1, h2⟩ := C75_sequence_of u strict l d r f t t' ht _ _ hm bs h hl
    cases h1
    rw [h2]
    rintro ⟨-, h3⟩
    cases h3 with
    | @cons w y ws ys h4 h5 =>
      obtain ⟨e, h6, h7⟩ := h4
      cases he with
      | cons _ _ _ _ _ h8 h9 =>
        have hnb : NamedBy l t' (.setOf t'') := named_unconstrained (by rw [ht']; exact .here _)
        have h8' := named_means hnb h8
        cases h8' with
        | setOf _ n' z' vs' xs' _ =>
          obtain ⟨tag, k, c, h10, h11⟩ := h7
          obtain ⟨bss, -, h12⟩ := written_slice h6
          obtain ⟨h13, -⟩ := first_tag h11 (enc_class h10) (n := if c! "SET" <:+ n' then 17 else 16) (by split <;> omega) h12
          rw [named_enc hnb] at h10
          have hn' : c! "SET" <:+ n' := by
            by_contra hno
            rw [if_neg hno] at h13
            subst h13
            cases h10
          obtain ⟨e', hg, hty⟩ := hty
          cases hg with
          | sequenceOf _ e' hg =>
            obtain ⟨z1, vs1, h14, h15⟩ := typed_slice hty (by intro b hb; cases hb)
            cases h14
            cases h15 with
            | cons _ _ _ h16 _ =>
              have hga : ∀ t0 : MTy, unconstrained t0 = .setOf t'' → ∀ e0, GoTypeOf u l d r t0 e0 → ∃ e1, e0 = .array e1 := by
                intro t0
                induction t0 using unconstrained.induct with
                | case1 t0 c ih =>
                  intro h1 e0 h2
                  cases h2 with
                  | constrained _ _ _ h2 => exact ih (by simpa only [unconstrained] using h1) e0 h2
                | case2 t0 hno =>
                  intro h1 e0 h2
                  have : t0 = .setOf t'' := by
                    cases t0 with
                    | constrained t0 c => exact absurd rfl (hno _ _)
                    | _ => exact h1
                  subst this
                  cases h2 with
                  | setOf _ e1 _ => exact ⟨e1, rfl⟩
              obtain ⟨e1, rfl⟩ := hga t' ht' _ hg
              obtain ⟨z2, vs2, h17, -⟩ := typed_slice h16 (by intro b hb; cases hb)
              cases h17
              exact absurd (List.IsSuffix.length_le hn') (by decide)

/-! ### Components -/

/-- A SEQUENCE without DEFAULT is written rightly exactly if each of its components is. -/
theorem C75_sequence (u : Casing) (strict : Bool) (l : List MAssignment) (d : Int) (r : Str) (f : GoFile) (t : MTy) (c e : List MComponent)
    (ht : NamedBy l t (.sequence c e)) (hp : ∀ m ∈ members (c ++ e), PlainMember l d m) (fs : List GoFieldVal) (hty : HasGoType u l d r f (.sequence c e) (.struct fs))
    (xs : List (Option AsnVal)) (hm : Stands strict u l d r f t (.struct fs) (.record xs)) (bs : Bytes) (h : marshal u (.struct fs) = some bs)
    (hl : bs.length ≤ 9223372036854775807) :
    Encodes strict l d t (.record xs) bs ↔ EachRight strict u l d (members (c ++ e)) fs xs := by
  rw [named_encodes ht]
  exact sequence_iff hty (named_means ht hm) hp h hl

/-- The values of a generated type `a`, assigned to be a SEQUENCE, are structs with fields for its components. -/
theorem C75_struct (u : Casing) (fuel : Nat) (p : GenParams) (m : Module) (f : GoFile) (h : generateFile u fuel p m = some (.ok f))
    (hn : NamesOk u m.moduleBody.assignmentList) (a : Str) (c e : List MComponent) (ha : Assigned m.moduleBody.assignmentList a (.sequence c e))
    (v : GoVal) (hty : Typed f (.ident (goifyName u a)) v) : HasGoType u m.moduleBody.assignmentList m.tagDefault p.integerRepr f (.sequence c e) v := by
  have cx : Ctx u m.moduleBody.assignmentList m.tagDefault p.integerRepr f false Open.none (fun _ => False) := context h hn (fun _ h => h.elim)
  obtain ⟨x, h1, h2⟩ := typed_assigned cx ha hty
  exact ⟨x, h1, typedAt_not h2 (.inr nofun)⟩

theorem eachRight_get {strict : Bool} {u : Casing} {l : List MAssignment} {d : Int} {ms : List Member} {fs : List GoFieldVal} {xs : List (Option AsnVal)}
    (h : EachRight strict u l d ms fs xs) : ∀ {i : Nat} {m : Member} {n : Str} {tag : Option Str} {v : GoVal} {x : AsnVal}, ms[i]? = some m →
      fs[i]? = some (.mk n tag v) → xs[i]? = some (some x) → RightField strict u l d m.type (fieldParams tag) v x := by
  induction h with
  | nil => intro i m n tag v x h; simp at h
  | present m ms n tag v fs x xs h1 _ ih =>
    intro i m' n' tag' v' x' h2 h3 h4
    cases i with
    | zero =>
      simp only [List.getElem?_cons_zero, Option.some.injEq] at h2 h3 h4
      cases h3
      subst h2 h4
      exact h1
    | succ i => exact ih (by simpa using h2) (by simpa using h3) (by simpa using h4)
  | absent m ms n tag v fs xs _ ih =>
    intro i m' n' tag' v' x' h2 h3 h4
    cases i with
    | zero => simp at h4
    | succ i => exact ih (by simpa using h2) (by simpa using h3) (by simpa using h4)

theorem fieldTag_get {u : Casing} {l : List MAssignment} {d : Int} {r : Str} {f : GoFile} {fds : List GoField} {ms : List Member} {fs : List GoFieldVal}
    (h : TypedFields f fds fs) (hf : FieldsOf u l d r ms fds) {i : Nat} {m : Member} {n : Str} {tag : Option Str} {v : GoVal} (h1 : ms[i]? = some m)
    (h2 : fs[i]? = some (.mk n tag v)) : FieldTag l d m tag := by
  induction ms generalizing fds fs i with
  | nil => simp at h1
  | cons m' ms ih =>
    cases hf with
    | cons _ _ e tag' fds hg htag hf =>
      cases h with
      | cons _ _ _ v' _ fs' h3 h4 =>
        cases i with
        | zero =>
          simp only [List.getElem?_cons_zero, Option.some.injEq] at h1 h2
          cases h2
          subst h1
          exact htag
        | succ i => exact ih h4 hf (by simpa using h1) (by simpa using h2)

/-- If a SEQUENCE without DEFAULT is written rightly, so is each component, as a field with the parameters its tag tells. -/
theorem C75_component (u : Casing) (strict : Bool) (l : List MAssignment) (d : Int) (r : Str) (f : GoFile) (t : MTy) (c e : List MComponent)
    (ht : NamedBy l t (.sequence c e)) (hp : ∀ m ∈ members (c ++ e), PlainMember l d m) (fs : List GoFieldVal) (hty : HasGoType u l d r f (.sequence c e) (.struct fs))
    (xs : List (Option AsnVal)) (hm : Stands strict u l d r f t (.struct fs) (.record xs)) (bs : Bytes) (h : marshal u (.struct fs) = some bs)
    (hl : bs.length ≤ 9223372036854775807) (he : Encodes strict l d t (.record xs) bs) (i : Nat) (m : Member) (n : Str) (tag : Option Str) (v : GoVal) (x : AsnVal)
    (h1 : (members (c ++ e))[i]? = some m) (h2 : fs[i]? = some (.mk n tag v)) (h3 : xs[i]? = some (some x)) :
    FieldTag l d m tag ∧ RightField strict u l d m.type (fieldParams tag) v x := by
  refine ⟨?_, eachRight_get ((C75_sequence u strict l d r f t c e ht hp fs hty xs hm bs h hl).1 he) h1 h2 h3⟩
  obtain ⟨e', hg, hty⟩ := hty
  cases hg with
  | sequence _ _ fds hf => exact fieldTag_get (typed_struct hty) hf h1 h2

/-! ### Fields -/

/-- The class encoding/asn1 takes from all the tags of a component. -/
def classWritten (tags : List (Int × Value DefinedValue × Int)) : Nat :=
  if CLASS_APPLICATION ∈ tags.map Prod.fst then 1 else if CLASS_PRIVATE ∈ tags.map Prod.fst then 3 else 2

theorem class_written {l : List MAssignment} {d : Int} {t : MTy} {o : Bool} {df : Option (Value DefinedValue)} {p : FieldParams} (hp : TagMeaning l d t o df p) :
    fieldClass p = classWritten (tagsAround d t) := by
  have h1 : p.application = true ↔ CLASS_APPLICATION ∈ (tagsAround d t).map Prod.fst := by rw [hp.application, List.mem_map]
  have h2 : p.isPrivate = true ↔ CLASS_PRIVATE ∈ (tagsAround d t).map Prod.fst := by rw [hp.isPrivate, List.mem_map]
  simp only [fieldClass, classWritten, h1, h2]

theorem tags_unconstrained (d : Int) : ∀ t : MTy, tagsAround d t = tagsAround d (unconstrained t)
  | .constrained t c => by rw [tagsAround, unconstrained, tags_unconstrained d t]
  | .boolean | .integer _ | .enumerated _ _ | .octetString | .bitString _ | .objectIdentifier | .restrictedString _ | .sequence _ _
  | .set _ _ | .sequenceOf _ | .setOf _ | .ref _ | .choice _ _ | .tagged _ _ _ _ | .real | .null | .any _ | .nil
  | .characterString | .named _ => rfl

/-- A tagged component is written rightly only if the number of its outermost tag is that of its innermost one, and the class is the one that
encoding/asn1 takes: never UNIVERSAL. -/
theorem C75_component_tag (u : Casing) (strict : Bool) (l : List MAssignment) (d : Int) (r : Str) (f : GoFile) (m : Member) (tag : Option Str) (g : Tag DefinedValue)
    (t' : MTy) (kind : Int) (b : Bool) (hm : PlainMember l d m) (hf : FieldTag l d m tag) (ht : unconstrained m.type = .tagged g t' kind b)
    (hnum : ∀ y ∈ tagsAround d m.type, ∃ n, y.2.1 = .number n) (v : GoVal) (x : AsnVal) (hx : Stands strict u l d r f m.type v x)
    (hz : m.optional = true → v.isZero = false) (hv : NotRaw v) (e : Bytes) (h : makeField u v (fieldParams tag) = some e) (hl : e.length ≤ 9223372036854775807)
    (y : AsnVal) (he : Encodes strict l d m.type y e) :
    ∃ cls k, (tagsAround d m.type).getLast? = some (cls, g.classNumber, k) ∧ Spec.classOf g.cls = classWritten (tagsAround d m.type) := by
  have hp := hf.meaning (fun cls n k h => (hm.tags cls n k h).2) (by rw [hm.noDefault]; simp)
  obtain ⟨hleft, hpos⟩ := present_left hm hf hz hx
  obtain ⟨n, k, tag', body, -, -, -, rfl⟩ := written_field h hv hleft
  have hne : tagsAround d m.type ≠ [] := by rw [tags_unconstrained, ht, tagsAround]; simp
  obtain ⟨⟨cls, num, k'⟩, hlast⟩ := Option.ne_none_iff_exists'.1 (mt List.getLast?_eq_none_iff.1 hne)
  obtain ⟨z, hz'⟩ := hnum _ (List.mem_of_getLast? hlast)
  simp only at hz'
  subst hz'
  have hpt := (hp.tag z).2 ⟨cls, k', hlast⟩
  obtain ⟨k1, c1, h1⟩ := tagged_field (tag := tag') (k := k) (body := body) hpt (hpos z hpt) hl
  obtain ⟨tg, k2, c2, h2, h3⟩ := he
  have h2' : Enc strict l d (.tagged g t' kind b) y tg k2 c2 := by
    rw [← ht]
    exact (named_enc (named_unconstrained (.here _))).1 h2
  obtain ⟨n', h4, rfl⟩ := tagged_enc h2'
  obtain ⟨h5, -, -⟩ := encoding_inj h3 h1 (enc_class h2) (fieldClass_lt _)
  rw [AsnTag.mk.injEq] at h5
  refine ⟨cls, k', ?_, ?_⟩
  · rw [hlast, h4, h5.2, Int.toNat_of_nonneg (hpos z hpt)]
  · rw [h5.1, class_written hp]

/-- Tags of class UNIVERSAL are never written. -/
theorem C75_universal_never (u : Casing) (strict : Bool) (l : List MAssignment) (d : Int) (r : Str) (f : GoFile) (m : Member) (tag : Option Str) (g : Tag DefinedValue)
    (t' : MTy) (kind : Int) (b : Bool) (hm : PlainMember l d m) (hf : FieldTag l d m tag) (ht : unconstrained m.type = .tagged g t' kind b)
    (hnum : ∀ y ∈ tagsAround d m.type, ∃ n, y.2.1 = .number n) (hg : g.cls = CLASS_UNIVERSAL) (v : GoVal) (x : AsnVal) (hx : Stands strict u l d r f m.type v x)
    (hz : m.optional = true → v.isZero = false) (hv : NotRaw v) (e : Bytes) (h : makeField u v (fieldParams tag) = some e) (hl : e.length ≤ 9223372036854775807)
    (y : AsnVal) : ¬ Encodes strict l d m.type y e := by
  intro he
  obtain ⟨cls, k, -, h1⟩ := C75_component_tag u strict l d r f m tag g t' kind b hm hf ht hnum v x hx hz hv e h hl y he
  rw [hg, classWritten] at h1
  have : Spec.classOf CLASS_UNIVERSAL = 0 := rfl
  rw [this] at h1
  split at h1
  · cases h1
  · split at h1 <;> cases h1

/-- The tag of a type that a component refers to is never written, if the component has no tag of its own. -/
theorem C75_reference_tag_never (u : Casing) (strict : Bool) (l : List MAssignment) (d : Int) (r : Str) (f : GoFile) (m : Member) (tag : Option Str) (g : Tag DefinedValue)
    (t' : MTy) (kind : Int) (b : Bool) (hm : PlainMember l d m) (hf : FieldTag l d m tag) (hno : tagsAround d m.type = [])
    (ht : NamedBy l m.type (.tagged g t' kind b)) (hg : Spec.classOf g.cls ≠ 0) (v : GoVal) (x : AsnVal) (hx : Stands strict u l d r f m.type v x)
    (hz : m.optional = true → v.isZero = false) (hv : NotRaw v) (e : Bytes) (h : makeField u v (fieldParams tag) = some e) (hl : e.length ≤ 9223372036854775807)
    (y : AsnVal) : ¬ Encodes strict l d m.type y e := by
  rintro ⟨tg, k2, c2, h2, h3⟩
  have hp := hf.meaning (fun cls n k h => (hm.tags cls n k h).2) (by rw [hm.noDefault]; simp)
  obtain ⟨hleft, -⟩ := present_left hm hf hz hx
  obtain ⟨n, k, tag', body, -, -, -, rfl⟩ := written_field h hv hleft
  have hpt : (fieldParams tag).tag = none := by
    cases hq : (fieldParams tag).tag with
    | none => rfl
    | some z => obtain ⟨_, _, h⟩ := (hp.tag z).1 hq; rw [hno] at h; cases h
  have h1 := untagged_field (tag := tag') (k := k) (body := body) hpt hl
  rw [named_enc ht] at h2
  obtain ⟨n', h4, rfl⟩ := tagged_enc h2
  obtain ⟨h5, -, -⟩ := encoding_inj h3 h1 (enc_class h2) (by simp)
  rw [AsnTag.mk.injEq] at h5
  exact hg h5.1

/-- Tags of CHOICE types, without the word EXPLICIT, are never written as they should be if the chosen value is primitive. -/
theorem C75_choice_tag_never (u : Casing) (strict : Bool) (l : List MAssignment) (d : Int) (r : Str) (f : GoFile) (m : Member) (tag : Option Str) (g : Tag DefinedValue)
    (t' : MTy) (kind : Int) (b : Bool) (hm : PlainMember l d m) (hf : FieldTag l d m tag) (ht : unconstrained m.type = .tagged g t' kind b)
    (hnum : ∀ y ∈ tagsAround d m.type, ∃ n, y.2.1 = .number n) (hc : NoImplicit l t') (hk : ∀ y ∈ tagsAround d m.type, y.2.2 ≠ TAGS_EXPLICIT)
    (v : GoVal) (x : AsnVal) (hx : Stands strict u l d r f m.type v x) (hz : m.optional = true → v.isZero = false)
    (hv : ∃ n, universalType v.unboxed = some (n, false)) (e : Bytes) (h : makeField u v (fieldParams tag) = some e) (hl : e.length ≤ 9223372036854775807)
    (y : AsnVal) : ¬ Encodes strict l d m.type y e := by
  rintro ⟨tg, k2, c2, h2, h3⟩
  have hp := hf.meaning (fun cls n k h => (hm.tags cls n k h).2) (by rw [hm.noDefault]; simp)
  obtain ⟨hleft, hpos⟩ := present_left hm hf hz hx
  obtain ⟨n0, hv⟩ := hv
  obtain ⟨n, k, tag', body, h0, -, -, rfl⟩ := written_field h (by intro _ _ _ _ _ h; rw [h] at hv; cases hv) hleft
  rw [hv, Option.some.injEq, Prod.mk.injEq] at h0
  obtain ⟨rfl, rfl⟩ := h0
  have hne : tagsAround d m.type ≠ [] := by rw [tags_unconstrained, ht, tagsAround]; simp
  obtain ⟨⟨cls, num, k'⟩, hlast⟩ := Option.ne_none_iff_exists'.1 (mt List.getLast?_eq_none_iff.1 hne)
  obtain ⟨z, hz'⟩ := hnum _ (List.mem_of_getLast? hlast)
  simp only at hz'
  subst hz'
  have hpt := (hp.tag z).2 ⟨cls, k', hlast⟩
  have hex : (fieldParams tag).explicit ≠ true := by
    intro hex
    obtain ⟨y, h4, h5⟩ := hp.explicit.1 hex
    exact hk y h4 h5
  obtain ⟨z, rfl⟩ := Int.eq_ofNat_of_zero_le (hpos z hpt)
  have h1 : Encoding ⟨fieldClass (fieldParams tag), z⟩ false body (addTags (fieldParams tag) tag' false body) := by
    have hlen := addTags_length (p := fieldParams tag) (tag := tag') (k := false) (body := body)
    have := header_spec (fieldClass (fieldParams tag)) z false body (fieldClass_lt _) (by unfold maxLength; omega)
    unfold addTags
    simp only [hpt]
    rw [if_neg hex]
    exact this
  have h2' : Enc strict l d (.tagged g t' kind b) y tg k2 c2 := by
    rw [← ht]
    exact (named_enc (named_unconstrained (.here _))).1 h2
  obtain ⟨-, h5, -⟩ := encoding_inj h3 h1 (enc_class h2) (fieldClass_lt _)
  subst h5
  cases h2' with
  | implicit _ _ _ _ _ _ _ _ _ _ h6 _ => exact h6 hc

/-- A tagged component held in an `asn1.RawValue` is written rightly only if that has the tag already: its tag is not written. -/
theorem C75_raw_tag_only (u : Casing) (strict : Bool) (l : List MAssignment) (d : Int) (r : Str) (f : GoFile) (m : Member) (tag : Option Str) (g : Tag DefinedValue)
    (t' : MTy) (kind : Int) (b : Bool) (hm : PlainMember l d m) (hf : FieldTag l d m tag) (ht : unconstrained m.type = .tagged g t' kind b)
    (cls num : Nat) (k : Bool) (bytes full : Option Bytes) (x : AsnVal) (hx : Stands strict u l d r f m.type (.raw cls num k bytes full) x)
    (hz : m.optional = true → (GoVal.raw cls num k bytes full).isZero = false) (e : Bytes) (h : makeField u (.raw cls num k bytes full) (fieldParams tag) = some e)
    (hl : e.length ≤ 9223372036854775807) (y : AsnVal) (he : Encodes strict l d m.type y e) :
    g.classNumber = .number num ∧ Spec.classOf g.cls = cls := by
  obtain ⟨tg, k2, c2, h2, h3⟩ := he
  obtain ⟨hleft, -⟩ := present_left hm hf hz hx
  obtain ⟨c, n, hc, hn, h4, h5⟩ := means_sound hx _ _ _ _ _ rfl
  obtain rfl := Int.natCast_inj.1 hc
  obtain rfl := Int.natCast_inj.1 hn
  have h1 : ∃ c', Encoding ⟨cls, num⟩ k c' e := by
    rw [makeField_simple rfl, makeValue] at h
    have hub : (GoVal.raw cls num k bytes full).unboxed = .raw cls num k bytes full := rfl
    rw [hub] at hleft
    rw [hleft, if_neg (by simp)] at h
    split at h
    · next hfull =>
      subst h
      exact ⟨_, h5 hfull⟩
    · cases h
      rw [List.length_append] at hl
      exact ⟨_, header_spec cls num k _ h4 (by unfold maxLength; omega)⟩
  obtain ⟨c', h1⟩ := h1
  have h2' : Enc strict l d (.tagged g t' kind b) y tg k2 c2 := by
    rw [← ht]
    exact (named_enc (named_unconstrained (.here _))).1 h2
  obtain ⟨n', h6, rfl⟩ := tagged_enc h2'
  obtain ⟨h7, -, -⟩ := encoding_inj h3 h1 (enc_class h2) h4
  rw [AsnTag.mk.injEq] at h7
  exact ⟨by rw [h6, h7.2], h7.1⟩

/-- The contents of a string do not depend on its kind, so only its tag matters. -/
theorem string_right {strict : Bool} {l : List MAssignment} {d : Int} {k : Int} {tag tag' : Nat} {ok : Char → Prop} {enc : Char → Bytes} {s : Str} {e : Bytes}
    (hk : StringKind k tag ok enc) (hc : ∀ c ∈ s, ok c) (hen : Encoding ⟨0, tag'⟩ false (stringBytes s) e) :
    Encodes strict l d (.restrictedString k) (.string s) e ↔ tag = tag' := by
  have same : s.flatMap enc = stringBytes s := by
    cases hk with
    | ia5 => exact (stringBytes_ascii hc).symm
    | visible => exact (stringBytes_ascii fun c h => by have := hc c h; omega).symm
    | printable => exact (stringBytes_ascii fun c h => (printable_chars c (hc c h)).2).symm
    | numeric => exact (stringBytes_ascii fun c h => (numeric_chars c (hc c h)).2).symm
    | utf8 => rfl
  constructor
  · rintro ⟨tg, k', c', h1, h2⟩
    cases h1 with
    | string _ tag1 ok1 enc1 _ hk1 hc1 =>
      obtain ⟨h3, -, -⟩ := encoding_inj h2 hen (by simp) (by simp)
      rw [AsnTag.mk.injEq] at h3
      rw [← h3.2]
      generalize hq : k = q at hk1
      cases hk <;> cases hk1 <;> first | rfl | exact absurd hq (by decide)
  · rintro rfl
    refine ⟨_, _, _, .string _ _ _ _ _ hk hc, ?_⟩
    rw [same]
    exact hen

theorem core_named {l : List MAssignment} {t t' c : MTy} (h : NamedBy l t t') (ht : ∀ g t'' k b, t' ≠ .tagged g t'' k b) (ht' : ∀ t'' x, t' ≠ .constrained t'' x)
    (hc : Core t c) : c = t' ∨ ∃ a, c = .ref a := by
  induction h with
  | here t =>
    cases hc with
    | tagged g t c k b _ => exact absurd rfl (ht _ _ _ _)
    | constrained t c x _ => exact absurd rfl (ht' _ _)
    | done _ _ _ => exact .inl rfl
  | ref a t t' _ _ _ =>
    cases hc with
    | done _ _ _ => exact .inr ⟨a, rfl⟩
  | constrained t t' x _ ih =>
    cases hc with
    | constrained _ _ _ hc => exact ih ht ht' hc
    | done _ _ h2 => exact absurd rfl (h2 _ _)

/-- A component that is a string without tags is written rightly exactly if it is a PrintableString; or an IA5String, NumericString or UTF8String that
is not told by a reference; or a UTF8String that is, with characters that are not in PrintableString. -/
theorem C75_component_string (u : Casing) (strict : Bool) (l : List MAssignment) (d : Int) (r : Str) (f : GoFile) (m : Member) (tag : Option Str) (k : Int)
    (hm : PlainMember l d m) (hf : FieldTag l d m tag) (hno : tagsAround d m.type = []) (ht : NamedBy l m.type (.restrictedString k)) (v : GoVal) (s : Str)
    (hx : Stands strict u l d r f m.type v (.string s)) (hz : m.optional = true → v.isZero = false) (e : Bytes) (h : makeField u v (fieldParams tag) = some e)
    (hl : e.length ≤ 9223372036854775807) :
    Encodes strict l d m.type (.string s) e ↔ k = Tok.PrintableString ∨ (Core m.type (.restrictedString k) ∧ k ∈ fieldStrings) ∨
      (¬ Core m.type (.restrictedString k) ∧ k = Tok.UTF8String ∧ ∃ c ∈ s, c ∉ PrintableChars) := by
  have hp := hf.meaning (fun cls n k h => (hm.tags cls n k h).2) (by rw [hm.noDefault]; simp)
  obtain ⟨hleft, -⟩ := present_left hm hf hz hx
  have hpt : (fieldParams tag).tag = none := by
    cases hq : (fieldParams tag).tag with
    | none => rfl
    | some z => obtain ⟨_, _, h⟩ := (hp.tag z).1 hq; rw [hno] at h; cases h
  have hx := named_means ht hx
  rw [named_encodes ht]
  have hcore : ∀ k', Core m.type (.restrictedString k') → k' = k := by
    intro k' hc
    rcases core_named ht (by simp) (by simp) hc with h | ⟨a, h⟩
    · cases h; rfl
    · cases h
  cases hx with
  | string _ tg ok enc _ hk hc =>
    obtain ⟨n, k', tag', body, h1, h2, h3, rfl⟩ := written_field h (by intro _ _ _ _ _ h; cases h) hleft
    have hub : (GoVal.str s).unboxed = .str s := rfl
    rw [hub] at h1 h2 h3
    cases h1
    have htag : tag' = if (fieldParams tag).stringType = 0 then if s.all printableChar then 19 else 12 else (fieldParams tag).stringType := by
      rw [chooseTag] at h2
      split at h2
      · cases h2
      · split at h2
        · cases h2
        · split at h2
          · split at h2
            · cases h2
            · next h4 =>
              exfalso
              apply h4
              rw [valueTag]
              have := hp.strings
              simp only [List.mem_cons, List.not_mem_nil, or_false] at this
              split
              · split <;> omega
              · omega
          · rw [Option.some.injEq] at h2
            rw [← h2, valueTag]
    have hbody : body = stringBytes s := by
      rw [makeBody, encodeString] at h3
      simp only at h3
      split at h3
      · split at h3
        · cases h3; rfl
        · cases h3
      · split at h3
        · split at h3
          · cases h3; rfl
          · cases h3
        · split at h3
          · split at h3
            · cases h3; rfl
            · cases h3
          · cases h3; rfl
    subst hbody
    rw [string_right hk hc (untagged_field (tag := tag') (k := false) hpt hl), htag]
    have hne : (¬ s.all printableChar = true) ↔ ∃ c ∈ s, c ∉ PrintableChars := by
      rw [all_printable]
      simp only [not_forall, exists_prop]
    have hst := hp.strings
    simp only [List.mem_cons, List.not_mem_nil, or_false] at hst
    have h12 := hp.utf8
    have h18 := hp.numeric
    have h22 := hp.ia5
    by_cases hco : Core m.type (.restrictedString k)
    · simp only [hco, true_and, not_true_eq_false, false_and, or_false]
      have c12 : Core m.type (.restrictedString Tok.UTF8String) ↔ k = Tok.UTF8String := ⟨fun h => (hcore _ h).symm, fun h => h ▸ hco⟩
      have c18 : Core m.type (.restrictedString Tok.NumericString) ↔ k = Tok.NumericString := ⟨fun h => (hcore _ h).symm, fun h => h ▸ hco⟩
      have c22 : Core m.type (.restrictedString Tok.IA5String) ↔ k = Tok.IA5String := ⟨fun h => (hcore _ h).symm, fun h => h ▸ hco⟩
      rw [c12] at h12
      rw [c18] at h18
      rw [c22] at h22
      cases hk with
      | ia5 => rw [h22.2 rfl, if_neg (by decide)]; decide
      | numeric => rw [h18.2 rfl, if_neg (by decide)]; decide
      | utf8 => rw [h12.2 rfl, if_neg (by decide)]; decide
      | printable =>
        have h0 : (fieldParams tag).stringType = 0 := by
          rcases hst with h | h | h | h
          · exact h
          · exact absurd (h12.1 h) (by decide)
          · exact absurd (h18.1 h) (by decide)
          · exact absurd (h22.1 h) (by decide)
        rw [if_pos h0, if_pos ((all_printable s).2 hc)]
        simp
      | visible =>
        have h0 : (fieldParams tag).stringType = 0 := by
          rcases hst with h | h | h | h
          · exact h
          · exact absurd (h12.1 h) (by decide)
          · exact absurd (h18.1 h) (by decide)
          · exact absurd (h22.1 h) (by decide)
        rw [if_pos h0]
        constructor
        · intro h; split at h <;> omega
        · intro h; exact absurd h (by decide)
    · simp only [hco, false_and, false_or, not_false_eq_true, true_and]
      have h0 : (fieldParams tag).stringType = 0 := by
        rcases hst with h | h | h | h
        · exact h
        · exact absurd (by have := h12.1 h; rwa [hcore _ this] at this) hco
        · exact absurd (by have := h18.1 h; rwa [hcore _ this] at this) hco
        · exact absurd (by have := h22.1 h; rwa [hcore _ this] at this) hco
      rw [if_pos h0, ← hne]
      cases hk with
      | printable =>
        rw [if_pos ((all_printable s).2 hc)]
        simp
      | utf8 =>
        by_cases ha : s.all printableChar = true
        · rw [if_pos ha, ha]; decide
        · rw [if_neg ha]
          exact ⟨fun _ => .inr ⟨rfl, ha⟩, fun _ => rfl⟩
      | ia5 =>
        constructor
        · intro h; split at h <;> omega
        · rintro (h | ⟨h, -⟩) <;> exact absurd h (by decide)
      | numeric =>
        constructor
        · intro h; split at h <;> omega
        · rintro (h | ⟨h, -⟩) <;> exact absurd h (by decide)
      | visible =>
        constructor
        · intro h; split at h <;> omega
        · rintro (h | ⟨h, -⟩) <;> exact absurd h (by decide)

/-! ### Cases -/

theorem by_name (t : MTy) : NamedBy [.type (c! "A") t] (.ref (c! "A")) t := .ref _ _ _ (one_assigned t) (.here _)

/-- `A ::= [1] BOOLEAN`: what is written for TRUE is an encoding of no value. -/
example (x : AsnVal) : ¬ Encodes false [.type (c! "A") (tag CLASS_CONTEXT_SPECIFIC 1 .boolean)] TAGS_IMPLICIT (.ref (c! "A")) x [1, 1, 255] :=
  C75_tag_never asciiCasing false _ _ _ _ _ _ _ (by_name _) (by decide) (.bool true) _ (by intro _ _ _ _ _ h; cases h) rfl x

/-- `A ::= SET { a BOOLEAN }` -/
example (y : AsnVal) : ¬ Encodes true [.type (c! "A") (.set [comp (c! "a") .boolean] [])] TAGS_IMPLICIT (.ref (c! "A")) y [48, 3, 1, 1, 255] :=
  C75_set_never asciiCasing true _ _ (c! "int64") ⟨[], []⟩ _ _ _ (by_name _) (.struct [.mk (c! "A") none (.bool true)]) (.record [some (.boolean true)])
    (one_means (.set _ _ _ _ (.present _ _ _ _ _ _ _ _ (by simp) (.boolean _) .nil))) _ rfl y

/-- `A ::= UTF8String`: a string with other characters than those of PrintableString is written rightly, -/
example : Encodes true [.type (c! "A") (.restrictedString Tok.UTF8String)] TAGS_IMPLICIT (.ref (c! "A")) (.string (c! "a@b")) [12, 3, 97, 64, 98] :=
  (C75_string_exact asciiCasing true _ _ (c! "int64") ⟨[], []⟩ _ _ (by_name _) (.str (c! "a@b")) _ (one_means (.string _ _ _ _ _ .utf8 (by simp))) _
    (by decide +kernel) (by decide)).2 (.inr ⟨rfl, '@', by decide, by decide +kernel⟩)

/-- and others are not. -/
example : ¬ Encodes true [.type (c! "A") (.restrictedString Tok.UTF8String)] TAGS_IMPLICIT (.ref (c! "A")) (.string (c! "ab")) [19, 2, 97, 98] :=
  fun h => absurd ((C75_string_exact asciiCasing true _ _ (c! "int64") ⟨[], []⟩ _ _ (by_name _) (.str (c! "ab")) _ (one_means (.string _ _ _ _ _ .utf8 (by simp))) _
    (by decide +kernel) (by decide)).1 h) (by decide +kernel)

theorem time_a : TimeRef [.type (c! "A") (.ref (c! "GeneralizedTime"))] (c! "A") :=
  .ref _ _ _ (one_assigned _) rfl (.here (by intro t h; simp [Assigned, Assignment.name] at h))

/-- `A ::= GeneralizedTime`: a time of 1949 is written rightly. -/
example : Encodes true [.type (c! "A") (.ref (c! "GeneralizedTime"))] TAGS_IMPLICIT (.ref (c! "A")) (.time ⟨1949, 11, 16, 12, 0, 0⟩)
    [24, 15, 49, 57, 52, 57, 49, 49, 49, 54, 49, 50, 48, 48, 48, 48, 90] :=
  (C75_time_exact asciiCasing true _ _ (c! "int64") ⟨[], []⟩ _ time_a (.time ⟨1949, 11, 16, 12, 0, 0, 0⟩) _
    (one_means (.time ⟨1949, 11, 16, 12, 0, 0⟩ (by intro t h; simp [Assigned, Assignment.name] at h)
      ⟨by decide, by decide, by decide, by decide, by decide, by decide⟩)) _ (by decide +kernel) (by decide)).2 (.inl (by decide))

/-- `A ::= SEQUENCE OF IA5String`: the list with the element "a" is not written rightly, since the element is not. -/
example : ¬ Encodes false [.type (c! "A") (.sequenceOf (.restrictedString Tok.IA5String))] TAGS_IMPLICIT (.ref (c! "A")) (.list [.string (c! "a")])
    [48, 3, 19, 1, 97] := by
  obtain ⟨n, z, vs, h1, h2⟩ := C75_sequence_of asciiCasing false _ TAGS_IMPLICIT (c! "int64") ⟨[], []⟩ _ _ (by_name (.sequenceOf (.restrictedString Tok.IA5String)))
    (.slice [] false [.str (c! "a")]) [.string (c! "a")]
    (one_means (.sequenceOf _ _ _ _ _ (.cons _ _ _ _ _ (.string _ _ _ _ _ .ia5 (by decide)) (.nil _)))) [48, 3, 19, 1, 97] (by decide +kernel) (by decide)
  cases h1
  rw [h2]
  rintro ⟨-, h3⟩
  cases h3 with
  | cons h4 _ =>
    obtain ⟨e, h5, h6⟩ := h4
    have h7 := (C75_string_exact asciiCasing false [.type (c! "A") (.sequenceOf (.restrictedString Tok.IA5String))] TAGS_IMPLICIT (c! "int64") ⟨[], []⟩ _ _
      (.here (.restrictedString Tok.IA5String)) (.str (c! "a")) _ (.string _ _ _ _ _ .ia5 (by decide)) e h5 (by
        have : marshal asciiCasing (.str (c! "a")) = some [19, 1, 97] := by decide +kernel
        rw [this] at h5; cases h5; decide)).1 h6
    revert h7
    decide +kernel

theorem one_fieldTag {t : MTy} {f : GoFile} {tg : Option Str} {v : GoVal}
    (h : generateFile asciiCasing 20 int64Params (moduleOf TAGS_IMPLICIT [.type (c! "A") (.sequence [comp (c! "a") t] [])]) = some (.ok f))
    (hn : NamesOk asciiCasing [.type (c! "A") (.sequence [comp (c! "a") t] [])]) (hty : Typed f (.ident (c! "A")) (.struct [.mk (c! "A") tg v])) :
    FieldTag [.type (c! "A") (.sequence [comp (c! "a") t] [])] TAGS_IMPLICIT ⟨c! "a", t, false, none⟩ tg := by
  obtain ⟨e', hg, hty⟩ := C75_struct asciiCasing 20 int64Params _ f h hn (c! "A") _ _ (one_assigned (.sequence [comp (c! "a") t] [])) _ hty
  cases hg with
  | sequence _ _ fds hf => exact fieldTag_get (i := 0) (typed_struct hty) hf rfl rfl

/-- `A ::= SEQUENCE { a [1] CHOICE { b BOOLEAN } }`: the octets of the component with `b TRUE` are an encoding of no value. -/
example (y : AsnVal) : ¬ Encodes false [.type (c! "A") (.sequence [comp (c! "a") (tag CLASS_CONTEXT_SPECIFIC 1 (.choice [.mk (c! "b") .boolean] []))] [])] TAGS_IMPLICIT
    (tag CLASS_CONTEXT_SPECIFIC 1 (.choice [.mk (c! "b") .boolean] [])) y [129, 1, 255] := by
  refine C75_choice_tag_never asciiCasing false _ _ (c! "int64") ⟨[], []⟩ ⟨c! "a", _, false, none⟩ (some (c! "`asn1:\"tag:1\"`")) _ _ _ _
    ⟨rfl, ?_, ?_⟩ (one_fieldTag (f := fileA (.struct [.mk (c! "A") (.ident (c! "bool")) (some (c! "`asn1:\"tag:1\"`"))]) false) (v := .bool true) rfl
      (one_names ?_ (one_member ?_)) (struct_typed (.cons _ _ _ _ _ _ (.bool _ (by decide)) .nil))) rfl ?_ (.choice _ _) ?_ (.bool true)
    (.choice (c! "b") (.boolean true)) (.tagged _ _ _ _ _ _ (.choice _ _ _ _ _ (by intro h; cases h) (.boolean _))) (by simp) ⟨1, rfl⟩ _ (by decide +kernel) (by decide) y
  · intro cls n k h; simp [tagsAround, tag] at h; obtain ⟨-, rfl, -⟩ := h; exact ⟨by decide, by unfold GoInt; decide⟩
  · simp
  · intro nums h; simp [core_iff, removeWrapperTypes] at h
  · rintro a b (h | h) <;> cases h <;> rename_i h <;> cases h <;> rename_i h <;> cases h
  · intro y h; simp [tagsAround, tag] at h; exact ⟨1, by rw [h]⟩
  · intro y h; simp [tagsAround, tag] at h; rw [h]; decide

/-- `A ::= SEQUENCE { a [3] EXPLICIT CHOICE { i [0] INTEGER, b [1] BOOLEAN } }`: the octets of the component with `b TRUE` are an encoding of no value. -/
example (y : AsnVal) : ¬ Encodes false [.type (c! "A") taggedRaw] TAGS_IMPLICIT
    (.tagged ⟨CLASS_CONTEXT_SPECIFIC, .number 3⟩ (.choice rawAlts []) TAGS_EXPLICIT true) y [129, 1, 255] := by
  intro he
  refine absurd (C75_raw_tag_only asciiCasing false _ _ (c! "int64") ⟨[], []⟩ ⟨c! "a", _, false, none⟩ (some (c! "`asn1:\"explicit,tag:3\"`")) _ _ _ _
    ⟨rfl, ?_, ?_⟩ (one_fieldTag (f := fileA (.struct [.mk (c! "A") (.ident (c! "asn1.RawValue")) (some (c! "`asn1:\"explicit,tag:3\"`"))]) false)
      (v := .raw 2 1 false (some [255]) none) rfl
      (one_names ?_ (one_member ?_)) (struct_typed (.cons _ _ _ _ _ _ (.raw _ _ _ _ _ (by unfold GoInt; decide) (by unfold GoInt; decide)) .nil))) rfl 2 1 false (some [255]) none
    (.choice (c! "b") (.boolean true)) (.tagged _ _ _ _ _ _ (.raw _ _ 2 1 _ _ _ _ (rawAlts_tagged _) ?_ (by simp))) (by simp) _ (by decide +kernel) (by decide) y he).1
    (by simp)
  · intro cls n k h; simp [tagsAround] at h; obtain ⟨-, rfl, -⟩ := h; exact ⟨by decide, by unfold GoInt; decide⟩
  · simp
  · intro nums h; simp [core_iff, removeWrapperTypes] at h
  · rintro a b (h | h) <;> cases h <;> rename_i h <;> cases h
  · exact .choice _ _ _ _ _ _ _ _ (List.mem_cons_of_mem _ List.mem_cons_self)
      (.implicit CLASS_CONTEXT_SPECIFIC 1 _ _ _ _ ⟨0, 1⟩ _ _ rfl (by intro h; cases h) (.boolean true))

/-- The type `SEQUENCE { a VisibleString, b OCTET STRING OPTIONAL }`. -/
def visibleThen : MTy := .sequence [comp (c! "a") (.restrictedString Tok.VisibleString), .named (.mk (c! "b") .octetString) true none] []

/-- `A ::= SEQUENCE { a VisibleString, b OCTET STRING OPTIONAL }`: no value is written rightly. -/
theorem C75_visible_never (f : GoFile) (h : generateFile asciiCasing 20 int64Params (moduleOf TAGS_IMPLICIT [.type (c! "A") visibleThen]) = some (.ok f))
    (hn : NamesOk asciiCasing [.type (c! "A") visibleThen]) (v : GoVal) (hty : Typed f (.ident (c! "A")) v) (x : AsnVal)
    (hm : Stands false asciiCasing [.type (c! "A") visibleThen] TAGS_IMPLICIT (c! "int64") f (.ref (c! "A")) v x) (bs : Bytes) (hb : marshal asciiCasing v = some bs)
    (hl : bs.length ≤ 9223372036854775807) : ¬ Encodes false [.type (c! "A") visibleThen] TAGS_IMPLICIT (.ref (c! "A")) x bs := by
  intro he
  have hgo := C75_struct asciiCasing 20 int64Params (moduleOf TAGS_IMPLICIT [.type (c! "A") visibleThen]) f h hn (c! "A") _ _ (one_assigned visibleThen) v hty
  have hms : members ([comp (c! "a") (.restrictedString Tok.VisibleString), ComponentType.named (.mk (c! "b") .octetString) true none] ++ []) =
    [⟨c! "a", .restrictedString Tok.VisibleString, false, none⟩, ⟨c! "b", .octetString, true, none⟩] := rfl
  have hpm : ∀ m ∈ members ([comp (c! "a") (.restrictedString Tok.VisibleString), ComponentType.named (.mk (c! "b") .octetString) true none] ++ []),
      PlainMember [.type (c! "A") visibleThen] TAGS_IMPLICIT m := by
    intro m hm
    rw [hms] at hm
    simp only [List.mem_cons, List.not_mem_nil, or_false] at hm
    rcases hm with rfl | rfl
    · exact ⟨rfl, by simp [tagsAround], by simp⟩
    · exact ⟨rfl, by simp [tagsAround], fun _ hi => by cases hi⟩
  have hm' := named_means (by_name visibleThen) hm
  generalize hv0 : visibleThen = vt at hm'
  cases hm' with
  | sequence c e fs xs hmm =>
    unfold visibleThen at hv0
    cases hv0
    rw [hms] at hmm
    cases hmm with
    | present _ _ n tag w fs a xs hz hm1 hm2 =>
      obtain ⟨h1, e, h2, h3⟩ := C75_component asciiCasing false _ _ _ f _ _ _ (by_name visibleThen) hpm _ hgo _ hm bs hb hl he 0 _ _ _ _ _
        (by rw [hms]; rfl) rfl rfl
      cases hm1 with
      | string _ tg ok enc str hk hc =>
        have hlen : e.length ≤ 9223372036854775807 := by
          obtain ⟨bss, h4, h5⟩ := written_struct hb
          obtain ⟨b, bss', h6, h7, rfl⟩ := makeFields_split h4
          rw [h2, Option.some.injEq] at h6
          subst h6
          rw [h5, List.length_append, List.flatten_cons, List.length_append] at hl
          omega
        have h4 := (C75_component_string asciiCasing false [.type (c! "A") visibleThen] TAGS_IMPLICIT (c! "int64") f
          ⟨c! "a", .restrictedString Tok.VisibleString, false, none⟩ tag Tok.VisibleString (hpm _ (by rw [hms]; simp)) h1 rfl (.here _) (.str str) str
          (.string _ _ _ _ _ hk hc) (by simp) e h2 hlen).1 h3
        rcases h4 with h4 | ⟨-, h4⟩ | ⟨-, h4, -⟩ <;> exact absurd h4 (by decide)
    | absent _ _ n tag w fs xs ho => cases ho
  | _ => cases hv0

/-- There is such a file, and such a value. -/
example : ∃ f, generateFile asciiCasing 20 int64Params (moduleOf TAGS_IMPLICIT [.type (c! "A") visibleThen]) = some (.ok f) ∧
    Typed f (.ident (c! "A")) (.struct [.mk (c! "A") none (.str (c! "x")), .mk (c! "B") (some (c! "`asn1:\"optional\"`")) (.bytes none)]) ∧
    marshal asciiCasing (.struct [.mk (c! "A") none (.str (c! "x")), .mk (c! "B") (some (c! "`asn1:\"optional\"`")) (.bytes none)]) = some [48, 3, 19, 1, 120] :=
  ⟨fileA (.struct [.mk (c! "A") (.ident (c! "string")) none, .mk (c! "B") (.array (.ident (c! "byte"))) (some (c! "`asn1:\"optional\"`"))]) false, rfl,
    struct_typed (.cons _ _ _ _ _ _ (.string _ (by decide)) (.cons _ _ _ _ _ _ (.bytes _ (by decide)) .nil)), by decide +kernel⟩

end Asn1go.Props

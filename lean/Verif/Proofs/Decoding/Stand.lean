import Verif.Proofs.Decoding.Exact
import Verif.Proofs.Decoding.Kinds2
import Verif.Proofs.Decoding.Unique
import Verif.Spec.Certain

/-! What is read stands for a value of the type: C101. -/

namespace Asn1go.Deco

open Asn1go Spec CG Enco

variable {u : Casing} {l : List MAssignment} {d : Int} {r : Str} {f : GoFile} {s : Str → Prop} {B : Held}

/-! ### Values that stand for something -/

mutual

/-- The value stands for something, if it is of a type without strings and without named bits. -/
def Sound : GoVal → Prop
  | .big n => n ≠ none
  | .bits b n => ∃ (bits : List Bool) (k : Nat), k < 8 ∧ (b.getD []).flatMap octetBits = bits ++ List.replicate k false ∧ n = bits.length
  | .oid o => ∃ (a b : Nat) (q : List Nat), o = some ((a :: b :: q).map Int.ofNat) ∧ a ≤ 2 ∧ (a < 2 → b < 40) ∧ GoInt (40 * a + b)
  | .time t => ∃ x : AsnTime, x.Ok ∧ t = ⟨x.year, x.month, x.day, x.hour, x.minute, x.second, 0⟩
  | .slice _ _ l => SoundElems l
  | .struct fs => SoundFields fs
  | _ => True

/-- All elements do. -/
def SoundElems : List GoVal → Prop
  | [] => True
  | v :: l => Sound v ∧ SoundElems l

/-- All fields do, or can be left out and are zero. -/
def SoundFields : List GoFieldVal → Prop
  | [] => True
  | .mk _ tag v :: l => (Sound v ∨ (v.isZero = true ∧ (fieldParams tag).optional = true)) ∧ SoundFields l

end

theorem sound_named {v : GoVal} {n : Str} (h : Sound (v.named n)) : Sound v := by
  cases v <;> simpa [GoVal.named, Sound] using h

/-! ### What is read is so -/

theorem high_bits : ∀ n < 256, ∀ k < 8, n % 2 ^ k = 0 → octetBits (UInt8.ofNat n) = (octetBits (UInt8.ofNat n)).take (8 - k) ++ List.replicate k false := by
  decide +kernel

theorem bits_sound {c b : Bytes} {n : Int} (h : readBits c = some (b, n)) : Sound (.bits (some b) n) := by
  cases c with
  | nil => cases h
  | cons o c =>
    rw [readBits] at h
    split at h
    · cases h
    · rename_i hno
      simp only [not_or, not_and, not_exists] at hno
      obtain ⟨h1, h2, h3⟩ := hno
      simp only [Option.some.injEq, Prod.mk.injEq] at h
      obtain ⟨rfl, rfl⟩ := h
      have h7 : (7 : UInt8).toNat = 7 := rfl
      have h0 : (0 : UInt8).toNat = 0 := rfl
      have hk : o.toNat < 8 := by
        rw [gt_iff_lt, UInt8.lt_iff_toNat_lt] at h1
        omega
      rw [Sound]
      rcases List.eq_nil_or_concat c with rfl | ⟨q, x, rfl⟩
      · have := h2 rfl
        rw [gt_iff_lt, UInt8.lt_iff_toNat_lt] at this
        refine ⟨[], 0, by omega, rfl, ?_⟩
        simp only [List.length_nil]
        omega
      · have hx : x.toNat % 2 ^ o.toNat = 0 := by
          have := h3 x (by simp)
          simpa using this
        have hb := high_bits x.toNat x.toNat_lt o.toNat hk hx
        rw [UInt8.ofNat_toNat] at hb
        refine ⟨q.flatMap octetBits ++ (octetBits x).take (8 - o.toNat), o.toNat, hk, ?_, ?_⟩
        · simp only [List.concat_eq_append, Option.getD_some, List.flatMap_append, List.flatMap_singleton, List.append_assoc]
          rw [← hb]
        · have hl : (octetBits x).length = 8 := by simp [octetBits]
          simp only [List.concat_eq_append, List.length_append, List.length_singleton, List.length_take, hl, octetBits_length]
          omega

theorem arcs_nat {q : List Int} (h : ∀ n ∈ q, 0 ≤ n) : ∃ q' : List Nat, q = q'.map Int.ofNat := by
  refine ⟨q.map Int.toNat, ?_⟩
  rw [List.map_map]
  conv_lhs => rw [← List.map_id q]
  refine List.map_congr_left fun n hn => ?_
  have := h n hn
  simp only [id, Function.comp, Int.ofNat_eq_natCast]
  omega

theorem oid_sound {c : Bytes} {o : List Int} (h : readOid c = some o) : Sound (.oid (some o)) := by
  have hsm := oid_small h
  unfold readOid at h
  cases h1 : readArcs c.length c with
  | none => rw [h1] at h; cases h
  | some q =>
    rw [h1] at h
    cases q with
    | nil => cases h
    | cons n q =>
      simp only [Option.some.injEq] at h
      have h2 := arcs_small h1
      have h3 := h2 n (by simp)
      obtain ⟨q', rfl⟩ := arcs_nat fun m hm => (h2 m (List.mem_cons_of_mem _ hm)).1
      obtain ⟨n', rfl⟩ := Int.eq_ofNat_of_zero_le h3.1
      rw [Sound]
      by_cases hn : (n' : Int) < 80
      · rw [if_pos hn] at h
        subst h
        refine ⟨n' / 40, n' % 40, q', by simp, by omega, by omega, ?_⟩
        unfold GoInt
        omega
      · rw [if_neg hn] at h
        subst h
        refine ⟨2, n' - 80, q', ?_, by omega, by omega, ?_⟩
        · simp only [List.map_cons, Option.some.injEq, List.cons.injEq, Int.ofNat_eq_natCast]
          refine ⟨rfl, ?_, trivial⟩
          omega
        · unfold GoInt
          omega

theorem simple_sound {k : GoKind} {t : Nat} {c : Bytes} {v : GoVal} (h : ReadsSimple k t c v) : Sound v := by
  cases h with
  | bits _ _ _ _ h => exact bits_sound h
  | oid _ _ _ h => exact oid_sound h
  | time _ x h =>
    cases h with
    | mk y mo da ho mi se h1 h2 h3 h4 h5 h6 h7 h8 =>
      rw [Sound]
      exact ⟨⟨y, mo, da, ho, mi, se⟩, ⟨h1, ⟨h2, h3⟩, ⟨h4, h5⟩, h6, h7, h8⟩, rfl⟩
  | _ => simp [Sound]

theorem zero_isZero {n : Str} {k : GoKind} {v : GoVal} (h : Spec.Zero f n k v) : v.isZero = true := by
  refine Spec.Zero.rec (motive_1 := fun _ _ v _ => v.isZero = true) (motive_2 := fun _ vs _ => fieldsZero vs = true)
    ?_ ?_ ?_ ?_ ?_ ?_ ?_ ?_ ?_ ?_ ?_ ?_ ?_ ?_ ?_ h
  all_goals intros
  all_goals first
    | rfl
    | (simp [GoVal.isZero]; done)
    | (rename_i ih; rw [GoVal.isZero]; exact ih)
    | (rename_i ih1 ih2; rw [fieldsZero, ih1, ih2]; rfl)

theorem default_sound {p : FieldParams} {z : GoVal} (h : z.isZero = true) : Sound (setDefault p z) ∨ (setDefault p z).isZero = true := by
  cases z with
  | int n => exact .inl (by simp [setDefault, Sound])
  | enum n => exact .inl (by simp [setDefault, Sound])
  | _ => exact .inr h

/-- What is read is sound, or may be left out and is zero. -/
theorem reads_sound {e : GoExpr} {p : FieldParams} {b : Bytes} {v : GoVal} {rest : Bytes} (h : Decodes f u e p b v rest) :
    Sound v ∨ (v.isZero = true ∧ p.optional = true) := by
  refine Decodes.rec (motive_1 := fun e p b v rest _ => Sound v ∨ (v.isZero = true ∧ p.optional = true))
    (motive_2 := fun n k t c v _ => Sound v) (motive_3 := fun fs b vs rest _ => SoundFields vs) (motive_4 := fun e b vs _ => SoundElems vs)
    ?missing ?raw ?iface ?element ?simple ?struct ?slice ?fnil ?fcons ?enil ?econs h
  case missing => intro e p b n k z _ _ ho h; exact (default_sound (zero_isZero h)).imp id fun h => ⟨h, ho⟩
  case raw => intro e p b n h c rest _ _; exact .inl (by simp [Sound])
  case iface =>
    intro e p b n x l v _ _ _ h
    cases h <;> exact .inl (by simp [Sound])
  case element => intro e p b n k tag comp t c rest v _ _ _ _ ih; exact .inl ih
  case simple => intro n k t c v h; exact simple_sound h
  case struct => intro n fs t c rest vs _ ih; rw [Sound]; exact ih
  case slice => intro n e t c vs _ _ _ _ _ ih; rw [Sound]; exact ih
  case fnil => intro b; trivial
  case fcons => intro n e tag fs b b' rest v vs _ _ _ ih1 ih2; rw [SoundFields]; exact ⟨ih1, ih2⟩
  case enil => intro e; trivial
  case econs =>
    intro e b b' v vs _ _ _ ih1 ih2
    rw [SoundElems]
    exact ⟨ih1.resolve_right fun h => by simp at h, ih2⟩

/-! ### Types of which every sound value stands for something -/

theorem proper_core {t c : MTy} {v : GoVal} (hc : Core t c) (h : Proper l t v) : Proper l c v := by
  induction hc with
  | tagged g t c k b _ ih => exact ih fun t' v' hp => h _ _ (.tagged _ _ _ _ _ _ _ hp)
  | constrained t c x _ ih => exact ih fun t' v' hp => h _ _ (.constrained _ _ _ _ _ hp)
  | done => exact h

theorem proper_ref {a : Str} {t : MTy} {v : GoVal} (ha : Assigned l a t) (h : Proper l (.ref a) v) : Proper l t v :=
  fun t' v' hp => h _ _ (.ref _ _ _ _ _ ha hp)

/-- The name of a slice is not asked for. -/
theorem proper_named {t : MTy} {v : GoVal} {n : Str} (h : Proper l t (v.named n)) : Proper l t v := by
  have key : ∀ {t v t' v'}, Part l t v t' v' → ∀ {m z vs}, v = .slice m z vs → Part l t (.slice n z vs) t' v' ∨ v' = v := by
    intro t v t' v' hp
    induction hp with
    | here => exact fun _ => .inr rfl
    | ref _ _ _ _ _ ha _ ih => exact fun h => (ih h).imp (.ref _ _ _ _ _ ha) id
    | constrained _ _ _ _ _ _ ih => exact fun h => (ih h).imp (.constrained _ _ _ _ _) id
    | tagged _ _ _ _ _ _ _ _ ih => exact fun h => (ih h).imp (.tagged _ _ _ _ _ _ _) id
    | choice _ _ _ _ _ _ hn _ ih => exact fun h => (ih h).imp (.choice _ _ _ _ _ _ hn) id
    | sequence => intro _ _ _ h; cases h
    | set => intro _ _ _ h; cases h
    | sequenceOf _ _ _ _ _ _ _ hm hp => intro _ _ _ h; cases h; exact .inl (.sequenceOf _ _ _ _ _ _ _ hm hp)
    | setOf _ _ _ _ _ _ _ hm hp => intro _ _ _ h; cases h; exact .inl (.setOf _ _ _ _ _ _ _ hm hp)
  cases v with
  | slice m z vs =>
    intro t' v' hp
    rcases key hp rfl with hp | rfl
    · exact h _ _ hp
    · exact ⟨fun _ _ _ _ _ _ h => (by cases h), fun _ _ _ _ _ _ h => (by cases h)⟩
  | _ => exact h

/-- In types without such strings and bits all values are proper. -/
theorem certain_part (hcert : ∀ a t, .type a t ∈ l → AllCertain l t) {t t' : MTy} {v v' : GoVal} (h : Part l t v t' v') : AllCertain l t → Certain t' := by
  induction h with
  | here => exact fun h => h _ (.here _)
  | ref _ _ _ _ _ ha _ ih => exact fun _ => ih (hcert _ _ (assigned_mem ha))
  | constrained _ _ _ _ _ _ ih => exact fun h => ih fun t' hi => h _ (.constrained _ _ _ hi)
  | tagged _ _ _ _ _ _ _ _ ih => exact fun h => ih fun t' hi => h _ (.tagged _ _ _ _ _ hi)
  | choice _ _ _ _ _ _ hn _ ih => exact fun h => ih fun t' hi => h _ (.choice _ _ _ _ hn hi)
  | sequence _ _ _ _ _ _ _ _ _ hm _ _ ih => exact fun h => ih fun t' hi => h _ (.sequence _ _ _ _ (List.of_mem_zip hm).1 hi)
  | set _ _ _ _ _ _ _ _ _ hm _ _ ih => exact fun h => ih fun t' hi => h _ (.set _ _ _ _ (List.of_mem_zip hm).1 hi)
  | sequenceOf _ _ _ _ _ _ _ _ _ ih => exact fun h => ih fun t' hi => h _ (.sequenceOf _ _ hi)
  | setOf _ _ _ _ _ _ _ _ _ ih => exact fun h => ih fun t' hi => h _ (.setOf _ _ hi)

theorem certain_here {t : MTy} {v : GoVal} (hc : Certain t) : ProperHere t v := by
  refine ⟨?_, ?_⟩
  · rintro k tag ok enc q rfl rfl hk c _
    cases hc
    generalize hu : Tok.UTF8String = kind at hk
    cases hk with
    | utf8 => trivial
    | _ => exact absurd hu (by decide)
  · rintro nb b bits k rfl hnb
    exact absurd hc hnb

theorem certain_proper (hcert : ∀ a t, .type a t ∈ l → AllCertain l t) {t : MTy} {v : GoVal} (h : AllCertain l t) : Proper l t v :=
  fun _ _ hp => certain_here (certain_part hcert hp h)

theorem means_elem {t : MTy} {vs : List GoVal} {xs : List AsnVal} (h : MeansElems l B t vs xs) : ∀ v ∈ vs, ∃ x, Means l B t v x := by
  induction vs generalizing xs with
  | nil => simp
  | cons v vs ih =>
    cases h with
    | cons _ _ _ _ _ h1 h2 =>
      intro w hw
      rcases List.mem_cons.1 hw with rfl | hw
      · exact ⟨_, h1⟩
      · exact ih h2 w hw

theorem means_member {ms : List Member} {fs : List GoFieldVal} {xs : List (Option AsnVal)} (h : MeansMembers l B ms fs xs) {m : Member} {n : Str}
    {tag : Option Str} {v : GoVal} (hm : (m, GoFieldVal.mk n tag v) ∈ ms.zip fs) (hz : ¬ (v.isZero = true ∧ m.optional = true)) : ∃ x, Means l B m.type v x := by
  induction ms generalizing fs xs with
  | nil => simp at hm
  | cons y ms ih =>
    cases h with
    | present _ _ _ _ _ _ _ _ _ h1 h2 =>
      rw [List.zip_cons_cons, List.mem_cons] at hm
      rcases hm with hm | hm
      · cases hm; exact ⟨_, h1⟩
      · exact ih h2 hm
    | absent _ _ _ _ _ _ _ h1 h2 h3 =>
      rw [List.zip_cons_cons, List.mem_cons] at hm
      rcases hm with hm | hm
      · cases hm; exact absurd ⟨h2, h1⟩ hz
      · exact ih h3 hm

/-- Parts of what stands for something do so. -/
theorem means_part {t t' : MTy} {v v' : GoVal} (h : Part l t v t' v') : (∃ x, Means l B t v x) → ∃ x, Means l B t' v' x := by
  induction h with
  | here => exact id
  | ref _ _ _ _ _ ha _ ih =>
    rintro ⟨x, hx⟩
    cases hx with
    | time _ hno => exact absurd ha (hno _)
    | ref _ _ _ _ h1 h2 => cases assigned_unique ha h1; exact ih ⟨_, h2⟩
  | constrained _ _ _ _ _ _ ih => rintro ⟨x, hx⟩; cases hx with | constrained _ _ _ _ h => exact ih ⟨_, h⟩
  | tagged _ _ _ _ _ _ _ _ ih => rintro ⟨x, hx⟩; cases hx with | tagged _ _ _ _ _ _ h => exact ih ⟨_, h⟩
  | choice _ _ _ _ _ _ hn _ ih =>
    rintro ⟨x, hx⟩
    cases hx with
    | choice _ _ _ _ _ _ h => exact ih ⟨_, h⟩
    | alternative _ _ _ _ _ _ _ _ h => exact absurd rfl h
    | raw _ _ _ _ _ _ _ _ h =>
      obtain ⟨n, t, hm, ht⟩ := h
      cases List.mem_singleton.1 hm
      exact absurd ht hn
  | sequence _ _ _ _ _ _ _ _ _ hm hz _ ih => rintro ⟨x, hx⟩; cases hx with | sequence _ _ _ _ h => exact ih (means_member h hm hz)
  | set _ _ _ _ _ _ _ _ _ hm hz _ ih => rintro ⟨x, hx⟩; cases hx with | set _ _ _ _ h => exact ih (means_member h hm hz)
  | sequenceOf _ _ _ _ _ _ _ hm _ ih => rintro ⟨x, hx⟩; cases hx with | sequenceOf _ _ _ _ _ h => exact ih (means_elem h _ hm)
  | setOf _ _ _ _ _ _ _ hm _ ih => rintro ⟨x, hx⟩; cases hx with | setOf _ _ _ _ _ h => exact ih (means_elem h _ hm)

/-- What stands for something is proper. -/
theorem means_proper {t : MTy} {v : GoVal} {x : AsnVal} (h : Means l B t v x) : Proper l t v := by
  intro t' v' hp
  obtain ⟨y, hy⟩ := means_part hp ⟨x, h⟩
  refine ⟨?_, ?_⟩
  · rintro k tag ok enc q rfl rfl hk
    cases hy with
    | string _ tag' ok' enc' _ hk' hq =>
      have key : ∀ {k k' tag tag' ok ok' enc enc'}, StringKind k tag ok enc → StringKind k' tag' ok' enc' → k = k' → ok = ok' := by
        intro k k' tag tag' ok ok' enc enc' h h' he
        cases h <;> cases h' <;> first | rfl | exact absurd he (by decide)
      rw [key hk hk' rfl]
      exact hq
  · rintro nb b bits k rfl hnb rfl hk he
    generalize hn : ((bits.length : Nat) : Int) = n at hy
    cases hy with
    | bitString _ _ bits' k' hk' he' hl =>
      have h1 : bits.length = bits'.length := by omega
      cases (List.append_inj (he.symm.trans he') h1).1
      exact hl hnb

/-- Neither tagged nor constrained nor a CHOICE. -/
def Basic : MTy → Prop
  | .tagged .. | .constrained .. | .choice .. => False
  | _ => True

/-- Under constraints and CHOICE types with one alternative is a type with the same Go type. -/
theorem basic_of (cx : Ctx u l d r f true .none s) : ∀ (t : MTy) {e : GoExpr} {pos : Position}, EncOk true .none l d r s pos t → GoTypeOf u l d r t e →
    ∃ t0 pos0, EncOk true .none l d r s pos0 t0 ∧ (∀ v, Proper l t v → Proper l t0 v) ∧ GoTypeOf u l d r t0 e ∧ Basic t0 ∧ ∀ v x, Means l B t0 v x → ∃ y, Means l B t v y
  | .constrained t c, e, pos, hok, hg => by
    cases hg with
    | constrained _ _ _ hg =>
      obtain ⟨t0, p0, h1, h2, h3, h4, h5⟩ := basic_of cx t (pos := pos) (by simpa [EncOk] using hok) hg
      exact ⟨t0, p0, h1, fun v h => h2 v fun t' v' hp => h _ _ (.constrained _ _ _ _ _ hp), h3, h4, fun v x hm => (h5 v x hm).imp fun y h => .constrained _ _ _ _ h⟩
  | .tagged g t k b, e, pos, hok, _ => by simp [EncOk] at hok
  | .choice [] _, e, pos, hok, _ => absurd (choice_only rfl hok) (by simp [EncOkOnly])
  | .choice (.mk n t :: y :: q) _, e, pos, hok, _ => by
    have h := choice_only rfl hok
    rw [EncOkOnly] at h
    exact absurd h.1 (by simp [Open.none])
  | .choice [.mk n t] ext, e, pos, hok, hg => by
    have hon := choice_only rfl hok
    have hun := alts_untagged cx hon
    have hna : ¬ AltTagged l t := fun h => hun ⟨n, t, by simp, h⟩
    cases hg with
    | rawChoice _ _ h => exact absurd h hun
    | choice _ _ _ h => simp at h
    | onlyChoice _ _ _ _ _ hg =>
      obtain ⟨t0, p0, h1, h2, h3, h4, h5⟩ := basic_of cx t (pos := .element) (only_ok hok hna) hg
      exact ⟨t0, p0, h1, fun v h => h2 v fun t' v' hp => h _ _ (.choice _ _ _ _ _ _ hna hp), h3, h4, fun v x hm => (h5 v x hm).imp' _ fun y h => .choice n _ _ _ _ hna h⟩
  | .boolean, _, _, h1, h3 => ⟨_, _, h1, fun _ h => h, h3, trivial, fun _ x h => ⟨x, h⟩⟩
  | .integer _, _, _, h1, h3 => ⟨_, _, h1, fun _ h => h, h3, trivial, fun _ x h => ⟨x, h⟩⟩
  | .real, _, _, h1, h3 => ⟨_, _, h1, fun _ h => h, h3, trivial, fun _ x h => ⟨x, h⟩⟩
  | .null, _, _, h1, h3 => ⟨_, _, h1, fun _ h => h, h3, trivial, fun _ x h => ⟨x, h⟩⟩
  | .nil, _, _, h1, h3 => ⟨_, _, h1, fun _ h => h, h3, trivial, fun _ x h => ⟨x, h⟩⟩
  | .named _, _, _, h1, h3 => ⟨_, _, h1, fun _ h => h, h3, trivial, fun _ x h => ⟨x, h⟩⟩
  | .any _, _, _, h1, h3 => ⟨_, _, h1, fun _ h => h, h3, trivial, fun _ x h => ⟨x, h⟩⟩
  | .ref _, _, _, h1, h3 => ⟨_, _, h1, fun _ h => h, h3, trivial, fun _ x h => ⟨x, h⟩⟩
  | .sequence .., _, _, h1, h3 => ⟨_, _, h1, fun _ h => h, h3, trivial, fun _ x h => ⟨x, h⟩⟩
  | .set .., _, _, h1, h3 => ⟨_, _, h1, fun _ h => h, h3, trivial, fun _ x h => ⟨x, h⟩⟩
  | .sequenceOf _, _, _, h1, h3 => ⟨_, _, h1, fun _ h => h, h3, trivial, fun _ x h => ⟨x, h⟩⟩
  | .setOf _, _, _, h1, h3 => ⟨_, _, h1, fun _ h => h, h3, trivial, fun _ x h => ⟨x, h⟩⟩
  | .enumerated .., _, _, h1, h3 => ⟨_, _, h1, fun _ h => h, h3, trivial, fun _ x h => ⟨x, h⟩⟩
  | .characterString, _, _, h1, h3 => ⟨_, _, h1, fun _ h => h, h3, trivial, fun _ x h => ⟨x, h⟩⟩
  | .restrictedString _, _, _, h1, h3 => ⟨_, _, h1, fun _ h => h, h3, trivial, fun _ x h => ⟨x, h⟩⟩
  | .octetString, _, _, h1, h3 => ⟨_, _, h1, fun _ h => h, h3, trivial, fun _ x h => ⟨x, h⟩⟩
  | .bitString _, _, _, h1, h3 => ⟨_, _, h1, fun _ h => h, h3, trivial, fun _ x h => ⟨x, h⟩⟩
  | .objectIdentifier, _, _, h1, h3 => ⟨_, _, h1, fun _ h => h, h3, trivial, fun _ x h => ⟨x, h⟩⟩
termination_by t => sizeOf t

theorem leaf_means {a b : Str} {t c : MTy} (h : Leaf l a b t) (hn : t ≠ .nil) (hc : Core t c) {v : GoVal} {x : AsnVal} (hm : Means l B c v x) : Means l B (.ref a) v x := by
  induction h with
  | «alias» a c' b t hac _ ih =>
    obtain ⟨t1, h1, h2⟩ := hac
    exact .ref _ _ _ _ h1 (means_of_core h2 (ih hn hc))
  | assigned a t c' h1 _ _ => exact .ref _ _ _ _ h1 (means_of_core hc hm)
  | unassigned => exact absurd rfl hn

theorem proper_leaf {a b : Str} {t : MTy} {v : GoVal} (h : Leaf l a b t) (hn : t ≠ .nil) (hp : Proper l (.ref a) v) : Proper l t v := by
  induction h with
  | «alias» a c' b t hac _ ih =>
    obtain ⟨t1, h1, h2⟩ := hac
    exact ih hn (proper_core h2 (proper_ref h1 hp))
  | assigned a t c' h1 _ _ => exact proper_ref h1 hp
  | unassigned => exact absurd rfl hn

theorem timeRef_means {a : Str} (h : TimeRef l a) {x : AsnTime} (hx : x.Ok) :
    Means l B (.ref a) (.time ⟨x.year, x.month, x.day, x.hour, x.minute, x.second, 0⟩) (.time x) := by
  induction h with
  | here h => exact .time x h hx
  | ref a b t h1 h2 _ ih => exact .ref _ _ _ _ h1 (means_of_core (core_unconstrained h2 (by simp)) ih)

/-- A reference whose Go type is the name is one to an assigned type. -/
theorem ref_known {a b : Str} {t : MTy} {pos : Position} (hok : EncOk true .none l d r s pos (.ref a)) (h1 : Resolves l a b t)
    (h2 : ¬ TimeName b) : s a := by
  rw [EncOk] at hok
  rcases hok with h | ⟨-, h⟩
  · exact h
  · exact absurd (timeRef_resolves h h1) h2

theorem known_name (cx : Ctx u l d r f true .none s) {a : Str} (ha : s a) (q : Str) (hq : '.' ∉ q) : goifyName u a ++ q ∉ predeclared ∧ '.' ∉ goifyName u a ++ q := by
  obtain ⟨t, h, -⟩ := cx.closed a ha
  exact goify_not_special cx h q hq

/-- The values of types that are neither composed nor declared. -/
theorem leaf_stands (cx : Ctx u l d r f true .none s) {pos : Position} {t : MTy} {e : GoExpr} {v : GoVal}
    (hok : EncOk true .none l d r s pos t) (hc : Proper l t v) (hb : Basic t) (hg : GoTypeOf u l d r t e) (hty : Typed f e v) (hs : Sound v) :
    (∃ x, Means l B t v x) ∨ (∃ a, t = .ref a ∧ s a ∧ e = .ident (goifyName u a)) ∨ (∃ fs, e = .struct fs) ∨
      ∃ t' e', e = .array e' ∧ (t = .sequenceOf t' ∨ t = .setOf t') ∧ GoTypeOf u l d r t' e' := by
  have hbits : ∀ {nb b n}, Sound (.bits b n) → Proper l (.bitString nb) (.bits b n) → ∃ x, Means l B (.bitString nb) (.bits b n) x := by
    intro nb b n h hp
    rw [Sound] at h
    obtain ⟨bits, k, h1, h2, rfl⟩ := h
    exact ⟨_, .bitString _ _ bits k h1 h2 fun hnb => (hp _ _ (.here _ _)).bits _ _ _ _ rfl hnb rfl h1 h2⟩
  cases hg with
  | boolean =>
    cases hty with
    | bool b => exact .inl ⟨_, .boolean b⟩
    | «alias» _ _ _ hd _ => exact absurd (by decide) (not_declared cx hd).1
    | defined _ _ _ hd _ => exact absurd (by decide) (not_declared cx hd).1
  | int64 nums =>
    cases hty with
    | int64 n => exact .inl ⟨_, .integer nums n⟩
    | «alias» _ _ _ hd _ => exact absurd (by decide) (not_declared cx hd).1
    | defined _ _ _ hd _ => exact absurd (by decide) (not_declared cx hd).1
  | bigInt nums =>
    cases hty with
    | big n =>
      rw [Sound] at hs
      cases n with
      | none => exact absurd rfl hs
      | some n => exact .inl ⟨_, .bigInteger nums n⟩
  | real => simp [EncOk] at hok
  | characterString => simp [EncOk] at hok
  | restrictedString k =>
    cases hty with
    | string q =>
      have hk : ∃ tag ok enc, StringKind k tag ok enc := by
        simp only [EncOk, fieldStrings, List.mem_cons, List.not_mem_nil, or_false] at hok
        rcases hok with rfl | ⟨-, rfl | rfl | rfl | rfl⟩
        exacts [⟨_, _, _, .printable⟩, ⟨_, _, _, .printable⟩, ⟨_, _, _, .ia5⟩, ⟨_, _, _, .utf8⟩, ⟨_, _, _, .numeric⟩]
      obtain ⟨tag, ok, enc, hk⟩ := hk
      exact .inl ⟨_, .string _ _ _ _ q hk ((hc _ _ (.here _ _)).string _ _ _ _ _ rfl rfl hk)⟩
    | «alias» _ _ _ hd _ => exact absurd (by decide) (not_declared cx hd).1
    | defined _ _ _ hd _ => exact absurd (by decide) (not_declared cx hd).1
  | octetString =>
    cases hty with
    | bytes b => exact .inl ⟨_, .octetString b⟩
    | slice _ _ _ h => exact absurd rfl h
  | bitString nb =>
    cases hty with
    | bits b n => exact .inl (hbits hs hc)
    | «alias» _ _ _ hd _ => exact absurd (by decide) (not_declared cx hd).2
    | defined _ _ _ hd _ => exact absurd (by decide) (not_declared cx hd).2
  | objectIdentifier =>
    cases hty with
    | oid o =>
      rw [Sound] at hs
      obtain ⟨a, b, q, rfl, h1, h2, h3⟩ := hs
      exact .inl ⟨_, .objectIdentifier a b q h1 h2 h3⟩
    | «alias» _ _ _ hd _ => exact absurd (by decide) (not_declared cx hd).2
    | defined _ _ _ hd _ => exact absurd (by decide) (not_declared cx hd).2
  | enumerated a b =>
    cases hty with
    | enumerated n => exact .inl ⟨_, .enumerated a b n⟩
    | «alias» _ _ _ hd _ => exact absurd (by decide) (not_declared cx hd).2
    | defined _ _ _ hd _ => exact absurd (by decide) (not_declared cx hd).2
  | any => simp [EncOk] at hok
  | sequence => exact .inr (.inr (.inl ⟨_, rfl⟩))
  | set => exact .inr (.inr (.inl ⟨_, rfl⟩))
  | sequenceOf t e h => exact .inr (.inr (.inr ⟨t, e, rfl, .inl rfl, h⟩))
  | setOf t e h => exact .inr (.inr (.inr ⟨t, e, rfl, .inr rfl, h⟩))
  | tagged => exact hb.elim
  | constrained => exact hb.elim
  | time a b t h1 h2 =>
    have htr : TimeRef l a := by
      rw [EncOk] at hok
      rcases hok with h | ⟨-, h⟩
      · exact absurd h2 (ok_not_time cx (resolves_ok cx h1 h).1)
      · exact h
    cases hty with
    | time x =>
      rw [Sound] at hs
      obtain ⟨x, h3, rfl⟩ := hs
      exact .inl ⟨_, timeRef_means htr h3⟩
    | «alias» _ _ _ hd _ => exact absurd (by decide) (not_declared cx hd).2
    | defined _ _ _ hd _ => exact absurd (by decide) (not_declared cx hd).2
  | bits a b t nb h1 h2 h3 =>
    cases h1 with
    | generalizedTime => exact absurd (.inl rfl) h2
    | assigned _ _ hl hn =>
      cases hty with
      | bits b n =>
        obtain ⟨x, hx⟩ := hbits hs (proper_core h3 (proper_leaf hl hn hc))
        exact .inl ⟨x, leaf_means hl hn h3 hx⟩
      | «alias» _ _ _ hd _ => exact absurd (by decide) (not_declared cx hd).2
      | defined _ _ _ hd _ => exact absurd (by decide) (not_declared cx hd).2
  | ref a b t h1 h2 h3 => exact .inr (.inl ⟨a, rfl, ref_known hok h1 h2, rfl⟩)
  | rawChoice => exact hb.elim
  | onlyChoice => exact hb.elim
  | choice => exact hb.elim

/-- No Go type is `byte`. -/
theorem not_byte (cx : Ctx u l d r f true .none s) {t : MTy} {e : GoExpr} {pos : Position} (hok : EncOk true .none l d r s pos t)
    (hg : GoTypeOf u l d r t e) : e ≠ .ident (c! "byte") := by
  obtain ⟨t0, p0, h1, -, h3, h4, -⟩ := basic_of (B := ⟨fun _ _ => True, fun _ _ _ _ _ => True⟩) cx t hok hg
  intro he
  cases h3 with
  | ref a b t h5 h6 h7 =>
    have := (known_name cx (ref_known h1 h5 h6) [] (by simp)).1
    rw [List.append_nil] at this
    simp only [GoExpr.ident.injEq] at he
    rw [he] at this
    exact this (by decide)
  | tagged => exact h4
  | constrained => exact h4
  | onlyChoice => exact h4
  | _ => simp at he

/-- Values of INTEGER and BOOLEAN types. -/
theorem flat_typed (cx : Ctx u l d r f true .none s) {t c : MTy} (ht : TypeIs l t c) (hcn : c = .boolean ∨ ((∃ nums, c = .integer nums) ∧ r = c! "int64")) :
    ∀ {e : GoExpr} {v : GoVal}, (∀ c, Core t c → ∃ pos, EncOk true .none l d r s pos c) → GoTypeOf u l d r t e → Typed f e v → Sound v := by
  induction ht with
  | core t c hc _ =>
    intro e n _ hg hty
    rcases hcn with rfl | ⟨⟨nums, rfl⟩, hr⟩
    · cases goType_core hc hg with
      | boolean =>
        cases hty with
        | bool => simp [Sound]
        | «alias» _ _ _ hd _ => exact absurd (by decide) (not_declared cx hd).1
        | defined _ _ _ hd _ => exact absurd (by decide) (not_declared cx hd).1
    · cases goType_core hc hg with
      | int64 =>
        cases hty with
        | int64 => simp [Sound]
        | «alias» _ _ _ hd _ => exact absurd (by decide) (not_declared cx hd).1
        | defined _ _ _ hd _ => exact absurd (by decide) (not_declared cx hd).1
      | bigInt _ hb => rw [hr] at hb; exact absurd hb (by decide)
  | ref t t' c a hc ha ht ih =>
    intro e n hok hg hty
    obtain ⟨pos, hp⟩ := hok _ hc
    have hsa : s a := by
      rw [EncOk] at hp
      rcases hp with h | ⟨-, h⟩
      · exact h
      · exact absurd ht (timeRef_not h ha)
    obtain ⟨t'', e', h1, h2, h3⟩ := typed_ref cx hsa (goType_core hc hg) hty
    cases assigned_unique ha h1
    obtain ⟨t'', h4, h5⟩ := cx.closed a hsa
    cases assigned_unique ha h4
    have hnm : ¬ MarksSet l t' := by
      cases ht with
      | core _ _ hc _ => rcases hcn with rfl | ⟨⟨nums, rfl⟩, -⟩ <;> exact not_marks hc (by simp) (by simp) (by simp) (by simp)
      | ref _ _ _ _ hc _ _ => exact not_marks hc (by simp) (by simp) (by simp) (by simp)
    exact ih hcn (fun c hc => ⟨_, encOk_core hc h5⟩) h2 (typedAt_not h3 (.inr hnm))

/-- The value stands for something as a value of any type with the Go type, and of assigned types with the name for SET types. -/
def Stood (u : Casing) (l : List MAssignment) (d : Int) (r : Str) (s : Str → Prop) (B : Held) (e : GoExpr) (v : GoVal) : Prop :=
  (∀ pos t, EncOk true .none l d r s pos t → Proper l t v → GoTypeOf u l d r t e → ∃ x, Means l B t v x) ∧
    ∀ a t, s a → Assigned l a t → MarksSet l t → e = .ident (goifyName u a ++ c! "SET") → Proper l t v → ∃ x, Means l B t v x

/-- A component without a value is left out; all others are sound. -/
theorem member_sound (cx : Ctx u l d r f true .none s) {y : Member} {e : GoExpr} {tag : Option Str} {v : GoVal} (h1 : EncOkTagged true .none l d r s y.type)
    (h2 : DefaultOk true l r y) (hg : GoTypeOf u l d r y.type e) (ht : FieldTag l d y tag) (hty : Typed f e v)
    (hs : Sound v ∨ (v.isZero = true ∧ (fieldParams tag).optional = true)) : Sound v ∨ (v.isZero = true ∧ y.optional = true) := by
  rcases hs with hs | ⟨hz, ho⟩
  · exact .inl hs
  · rcases (ht.meaning (tags_goInt h1) (default_goInt h2)).optional.1 ho with h | h
    · exact .inr ⟨hz, h⟩
    · left
      obtain ⟨dv, hd⟩ := Option.ne_none_iff_exists'.1 h
      obtain ⟨-, a, h3, -, -, h4⟩ := h2 dv hd
      have hcore : ∀ c, Core y.type c → ∃ pos, EncOk true .none l d r s pos c := fun c hc => ⟨_, tagged_core hc h1⟩
      rcases h4 rfl with hr | rfl
      · cases h3 with
        | number _ nums h => exact flat_typed cx h (.inr ⟨⟨_, rfl⟩, hr⟩) hcore hg hty
        | boolean _ h => exact flat_typed cx h (.inl rfl) hcore hg hty
        | named _ _ nums h => exact flat_typed cx h (.inr ⟨⟨_, rfl⟩, hr⟩) hcore hg hty
        | defined _ _ nums h => exact flat_typed cx h (.inr ⟨⟨_, rfl⟩, hr⟩) hcore hg hty
      · cases h3 with
        | boolean _ h => exact flat_typed cx h (.inl rfl) hcore hg hty

/-- Every sound and proper value stands for something. -/
theorem stood (cx : Ctx u l d r f true .none s) {e : GoExpr} {v : GoVal} (h : Typed f e v) :
    Sound v → Stood u l d r s B e v := by
  have leaf : ∀ {e v}, Typed f e v → (∀ n, e = .ident n → n ∈ predeclared ∨ '.' ∈ n) → (∀ fs, e ≠ .struct fs) → (∀ e', e = .array e' → e' = .ident (c! "byte")) →
      Sound v → Stood u l d r s B e v := by
    intro e v hty h1 h2 h3 hs
    refine ⟨fun pos t hok hc hg => ?_, fun a t ha _ _ he _ => ?_⟩
    · obtain ⟨t0, p0, k1, k2, k3, k4, k5⟩ := basic_of (B := B) cx t hok hg
      rcases leaf_stands (B := B) cx k1 (k2 _ hc) k4 k3 hty hs with ⟨x, h⟩ | ⟨a, rfl, ha, he⟩ | ⟨fs, he⟩ | ⟨t', e', he, ht, hg'⟩
      · exact k5 _ _ h
      · have := known_name cx ha [] (by simp)
        rw [List.append_nil] at this
        exact absurd (h1 _ he) (by simp [this])
      · exact absurd he (h2 fs)
      · have hb := h3 _ he
        rcases ht with rfl | rfl
        · exact absurd hb (not_byte cx (pos := .element) (by simpa [EncOk] using k1) hg')
        · exact absurd hb (not_byte cx (pos := .element) (by rw [EncOk] at k1; exact k1.2) hg')
    · have := known_name cx ha (c! "SET") (by decide)
      exact absurd (h1 _ he) (by simp only [this.1, this.2, or_self, not_false_eq_true])
  refine Typed.rec (motive_1 := fun e v _ => Sound v → Stood u l d r s B e v)
    (motive_2 := fun e vs _ => SoundElems vs → ∀ t, EncOk true .none l d r s .element t → (∀ v ∈ vs, Proper l t v) → GoTypeOf u l d r t e → ∃ xs, MeansElems l B t vs xs)
    (motive_3 := fun fs vs _ => SoundFields vs → ∀ ys, (∀ y ∈ ys, EncOkTagged true .none l d r s y.type ∧ DefaultOk true l r y) →
      (∀ y n tag v, (y, GoFieldVal.mk n tag v) ∈ ys.zip vs → ¬ (v.isZero = true ∧ y.optional = true) → Proper l y.type v) → FieldsOf u l d r ys fs → ∃ xs, MeansMembers l B ys vs xs)
    ?_ ?_ ?_ ?_ ?_ ?_ ?_ ?_ ?_ ?_ ?_ ?_ ?_ ?_ ?_ ?_ ?_ ?_ ?_ ?_ ?_ h
  · intro b h; exact leaf (.bool b h) (by rintro _ ⟨⟩; exact .inl (by decide)) (by simp) (by simp)
  · intro n h h'; exact leaf (.int64 n h h') (by rintro _ ⟨⟩; exact .inl (by decide)) (by simp) (by simp)
  · intro h; exact leaf (.float64 h) (by rintro _ ⟨⟩; exact .inl (by decide)) (by simp) (by simp)
  · intro q h; exact leaf (.string q h) (by rintro _ ⟨⟩; exact .inl (by decide)) (by simp) (by simp)
  · intro b h; exact leaf (.bytes b h) (by simp) (by simp) (by rintro _ ⟨⟩; rfl)
  · intro n; exact leaf (.big n) (by simp) (by simp) (by simp)
  · intro b n h; exact leaf (.bits b n h) (by rintro _ ⟨⟩; exact .inr (by decide)) (by simp) (by simp)
  · intro n h; exact leaf (.enumerated n h) (by rintro _ ⟨⟩; exact .inr (by decide)) (by simp) (by simp)
  · intro o h; exact leaf (.oid o h) (by rintro _ ⟨⟩; exact .inr (by decide)) (by simp) (by simp)
  · intro t; exact leaf (.time t) (by rintro _ ⟨⟩; exact .inr (by decide)) (by simp) (by simp)
  · intro c t k b b' h h'; exact leaf (.raw c t k b b' h h') (by rintro _ ⟨⟩; exact .inr (by decide)) (by simp) (by simp)
  · exact leaf .nil (by simp) (by simp) (by simp)
  · intro e v h h1 h2 _; exact leaf (.iface e v h h1 h2) (by simp) (by simp) (by simp)
  · intro e z vs hne hz hty ih hs
    refine ⟨fun pos t hok hc hg => ?_, fun _ _ _ _ _ he _ => by cases he⟩
    obtain ⟨t0, p0, k1, k2, k3, k4, k5⟩ := basic_of (B := B) cx t hok hg
    rw [Sound] at hs
    cases k3 with
    | octetString => exact absurd rfl hne
    | sequenceOf t' _ hg' =>
      obtain ⟨xs, hx⟩ := ih hs t' (by simpa [EncOk] using k1) (fun w hw t'' v'' h => k2 _ hc _ _ (.sequenceOf _ _ _ _ _ _ _ hw h)) hg'
      exact k5 _ _ (.sequenceOf _ _ _ _ _ hx)
    | setOf t' _ hg' =>
      obtain ⟨xs, hx⟩ := ih hs t' (by rw [EncOk] at k1; exact k1.2) (fun w hw t'' v'' h => k2 _ hc _ _ (.setOf _ _ _ _ _ _ _ hw h)) hg'
      exact k5 _ _ (.setOf _ _ _ _ _ hx)
    | tagged => exact k4.elim
    | constrained => exact k4.elim
    | onlyChoice => exact k4.elim
  · intro fs vs hty ih hs
    refine ⟨fun pos t hok hc hg => ?_, fun _ _ _ _ _ he _ => by cases he⟩
    obtain ⟨t0, p0, k1, k2, k3, k4, k5⟩ := basic_of (B := B) cx t hok hg
    rw [Sound] at hs
    cases k3 with
    | sequence a b _ hf =>
      rw [EncOk] at k1
      have hm := members_ok k1.1 k1.2
      obtain ⟨xs, hx⟩ := ih hs _ hm (fun y n tag w hy hz t'' v'' h => k2 _ hc _ _ (.sequence _ _ _ _ _ _ _ _ _ hy hz h)) hf
      exact k5 _ _ (.sequence _ _ _ _ hx)
    | set a b _ hf =>
      rw [EncOk] at k1
      have hm := members_ok k1.2.1 k1.2.2.1
      obtain ⟨xs, hx⟩ := ih hs _ hm (fun y n tag w hy hz t'' v'' h => k2 _ hc _ _ (.set _ _ _ _ _ _ _ _ _ hy hz h)) hf
      exact k5 _ _ (.set _ _ _ _ hx)
    | tagged => exact k4.elim
    | constrained => exact k4.elim
    | onlyChoice => exact k4.elim
  · intro n e v hd hty ih hs
    have hsp := not_declared cx hd
    refine ⟨fun pos t hok hc hg => ?_, fun a t ha hat hm he hpr => ?_⟩
    · obtain ⟨t0, p0, k1, k2, k3, k4, k5⟩ := basic_of (B := B) cx t hok hg
      rcases leaf_stands (B := B) cx k1 (k2 _ hc) k4 k3 (.alias _ _ _ hd hty) hs with ⟨x, h⟩ | ⟨a, rfl, ha, he⟩ | ⟨fs, he⟩ | ⟨t', e', he, -⟩
      · exact k5 _ _ h
      · cases he
        obtain ⟨t', h1, h2⟩ := cx.closed a ha
        rcases declares_for cx h1 hd with ⟨-, h3, -⟩ | ⟨-, h3, h4⟩
        · obtain ⟨x, hx⟩ := (ih hs).1 _ _ h2 (proper_ref h1 (k2 _ hc)) h3
          exact k5 _ _ (.ref _ _ _ _ h1 hx)
        · obtain ⟨x, hx⟩ := (ih hs).2 _ _ ha h1 h3 h4 (proper_ref h1 (k2 _ hc))
          exact k5 _ _ (.ref _ _ _ _ h1 hx)
      · cases he
      · cases he
    · cases he
      exact absurd (declares_set cx hat hm hd).1 (by simp)
  · intro n e v hd hty ih hs
    refine ⟨fun pos t hok hc hg => ?_, fun a t ha hat hm he hpr => ?_⟩
    · obtain ⟨t0, p0, k1, k2, k3, k4, k5⟩ := basic_of (B := B) cx t hok hg
      rcases leaf_stands (B := B) cx k1 (k2 _ hc) k4 k3 (.defined _ _ _ hd hty) hs with ⟨x, h⟩ | ⟨a, rfl, ha, he⟩ | ⟨fs, he⟩ | ⟨t', e', he, -⟩
      · exact k5 _ _ h
      · cases he
        obtain ⟨t', h1, h2⟩ := cx.closed a ha
        rcases declares_for cx h1 hd with ⟨-, h3, h4⟩ | ⟨h3, -, -⟩
        · obtain ⟨fs, rfl⟩ := h4 rfl
          obtain ⟨x, hx⟩ := (ih (sound_named hs)).1 _ _ h2 (proper_named (proper_ref h1 (k2 _ hc))) h3
          cases hty with
          | struct => exact k5 _ _ (.ref _ _ _ _ h1 hx)
        · cases h3
      · cases he
      · cases he
    · cases he
      obtain ⟨t', h1, h2⟩ := cx.closed a ha
      cases assigned_unique hat h1
      obtain ⟨x, hx⟩ := (ih (sound_named hs)).1 _ _ h2 (proper_named hpr) (declares_set cx hat hm hd).2
      exact ⟨x, means_named hx _⟩
  · intro e _ t _ _ _; exact ⟨[], .nil _⟩
  · intro e v vs _ _ ih1 ih2 hs t hok hc hg
    rw [SoundElems] at hs
    obtain ⟨x, hx⟩ := (ih1 hs.1).1 _ _ hok (hc _ (by simp)) hg
    obtain ⟨xs, hxs⟩ := ih2 hs.2 t hok (fun w hw => hc w (by simp [hw])) hg
    exact ⟨_, .cons _ _ _ _ _ hx hxs⟩
  · intro _ ys _ _ hf
    cases hf
    exact ⟨[], .nil⟩
  · intro n e tag v fs vs hty _ ih1 ih2 hs ys hys hpr hf
    rw [SoundFields] at hs
    cases hf with
    | cons y ys _ _ _ hg ht hf =>
      obtain ⟨xs, hxs⟩ := ih2 hs.2 ys (fun z hz => hys z (by simp [hz])) (fun z n tag w hz => hpr z n tag w (by rw [List.zip_cons_cons]; exact List.mem_cons_of_mem _ hz)) hf
      obtain ⟨h1, h2⟩ := hys y (by simp)
      have hc := core_total y.type
      have hin : Sound v → Proper l y.type v → ∃ x, Means l B y.type v x := fun h hp =>
        ((ih1 h).1 _ _ (tagged_core hc h1) (proper_core hc hp) (goType_core hc hg)).imp fun x hx => means_of_core hc hx
      by_cases hz : v.isZero = true ∧ y.optional = true
      · exact ⟨_, .absent _ _ _ _ _ _ _ hz.2 hz.1 hxs⟩
      · obtain ⟨x, hx⟩ := hin ((member_sound cx h1 h2 hg ht hty hs.1).resolve_right hz) (hpr y _ tag v List.mem_cons_self hz)
        exact ⟨_, .present _ _ _ _ _ _ _ _ (fun ho => by simpa [ho] using hz) hx hxs⟩

end Asn1go.Deco

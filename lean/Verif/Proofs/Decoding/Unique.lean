import Verif.Proofs.Decoding.Octets2
import Verif.Proofs.Decoding.Read3
import Verif.Proofs.Tools.Utf8

/-! What encoding/asn1 reads is unique, and is a value of the type. -/

namespace Asn1go.Deco

open Asn1go Spec CG Enco

variable {u : Casing} {f : GoFile}

/-! ### Declarations -/

theorem mem_declared {sp : GoTypeSpec} : ∀ {ds : List GoDecl} {l : List GoTypeSpec}, GoDecl.type l ∈ ds → sp ∈ l → sp.name ∈ declared ds
  | [], _, h, _ => by cases h
  | dc :: ds, l, h, hs => by
    rcases List.mem_cons.1 h with rfl | h
    · rw [declared]
      exact List.mem_append_left _ (List.mem_map_of_mem hs)
    · have := mem_declared h hs
      cases dc <;> simp only [declared, List.mem_append]
      · exact .inr this
      · exact .inr this
      · exact this

theorem declares_mem {sp : GoTypeSpec} (h : Declares f sp) : sp.name ∈ declared f.decls := by
  obtain ⟨l, h1, h2⟩ := h
  exact mem_declared h1 h2

theorem spec_eq {sp sp' : GoTypeSpec} (hn : sp.name = sp'.name) : ∀ {ds : List GoDecl} {l l' : List GoTypeSpec}, (declared ds).Nodup →
    GoDecl.type l ∈ ds → sp ∈ l → GoDecl.type l' ∈ ds → sp' ∈ l' → sp = sp'
  | [], _, _, _, h, _, _, _ => by cases h
  | dc :: ds, l, l', hd, h1, h2, h3, h4 => by
    have hrest : (declared ds).Nodup := by
      cases dc <;> simp only [declared] at hd
      · exact hd.of_append_right
      · exact hd.of_append_right
      · exact hd
    rcases List.mem_cons.1 h1 with rfl | h1' <;> rcases List.mem_cons.1 h3 with h3 | h3
    · cases h3
      rw [declared] at hd
      exact List.inj_on_of_nodup_map hd.of_append_left h2 h4 hn
    · rw [declared] at hd
      exact absurd (hn ▸ mem_declared h3 h4) (List.disjoint_of_nodup_append hd (List.mem_map_of_mem h2))
    · subst h3
      rw [declared] at hd
      exact absurd (hn ▸ mem_declared h1' h2) (List.disjoint_of_nodup_append hd (List.mem_map_of_mem h4))
    · exact spec_eq hn hrest h1' h2 h3 h4

theorem declares_eq (hd : (declared f.decls).Nodup) {sp sp' : GoTypeSpec} (h : Declares f sp) (h' : Declares f sp') (hn : sp.name = sp'.name) : sp = sp' := by
  obtain ⟨l, h1, h2⟩ := h
  obtain ⟨l', h3, h4⟩ := h'
  exact spec_eq hn hd h1 h2 h3 h4

/-- A type has one kind and one name. -/
theorem under_unique (hd : (declared f.decls).Nodup) (hdot : ∀ sp, Declares f sp → '.' ∉ sp.name) {e : GoExpr} {n n' : Str} {k k' : GoKind}
    (h : Underlies f e n k) (h' : Underlies f e n' k') : n = n' ∧ k = k' := by
  have hdc : ∀ {q b e}, Declares f ⟨q, b, e⟩ → '.' ∈ q → False := fun h h1 => hdot _ h h1
  induction h generalizing n' k' with
  | bool hp => cases h' <;> first | exact ⟨rfl, rfl⟩ | exact absurd (declares_mem ‹Declares _ _›) hp
  | int64 hp => cases h' <;> first | exact ⟨rfl, rfl⟩ | exact absurd (declares_mem ‹Declares _ _›) hp
  | float64 hp => cases h' <;> first | exact ⟨rfl, rfl⟩ | exact absurd (declares_mem ‹Declares _ _›) hp
  | string hp => cases h' <;> first | exact ⟨rfl, rfl⟩ | exact absurd (declares_mem ‹Declares _ _›) hp
  | bytes hp => cases h' <;> first | exact ⟨rfl, rfl⟩ | exact absurd rfl ‹_›
  | big => cases h'; exact ⟨rfl, rfl⟩
  | bits => cases h' <;> first | exact ⟨rfl, rfl⟩ | exact (hdc ‹Declares _ _› (by decide)).elim
  | enumerated => cases h' <;> first | exact ⟨rfl, rfl⟩ | exact (hdc ‹Declares _ _› (by decide)).elim
  | oid => cases h' <;> first | exact ⟨rfl, rfl⟩ | exact (hdc ‹Declares _ _› (by decide)).elim
  | time => cases h' <;> first | exact ⟨rfl, rfl⟩ | exact (hdc ‹Declares _ _› (by decide)).elim
  | raw => cases h' <;> first | exact ⟨rfl, rfl⟩ | exact (hdc ‹Declares _ _› (by decide)).elim
  | iface => cases h'; exact ⟨rfl, rfl⟩
  | slice e hne => cases h' <;> first | exact ⟨rfl, rfl⟩ | exact absurd rfl ‹_›
  | struct fs => cases h'; exact ⟨rfl, rfl⟩
  | «alias» n m e k h1 _ ih =>
    cases h' with
    | «alias» _ _ _ _ h2 h3 => cases declares_eq hd h1 h2 rfl; exact ih h3
    | defined _ _ _ _ h2 _ _ => cases declares_eq hd h1 h2 rfl
    | _ => first | exact absurd (declares_mem h1) ‹_› | exact (hdc h1 (by decide)).elim
  | defined n m e k h1 _ _ ih =>
    cases h' with
    | «alias» _ _ _ _ h2 _ => cases declares_eq hd h1 h2 rfl
    | defined _ _ _ _ h2 h3 _ => cases declares_eq hd h1 h2 rfl; exact ⟨rfl, (ih h3).2⟩
    | _ => first | exact absurd (declares_mem h1) ‹_› | exact (hdc h1 (by decide)).elim

/-! ### Contents -/

theorem stringBytes_readAs (q : Str) : ReadAs (stringBytes q) q := by
  induction q with
  | nil => exact .nil
  | cons c q ih => exact .char c _ _ ih

theorem stringBytes_inj {q q' : Str} (h : stringBytes q = stringBytes q') : q = q' := by
  rw [read_unique (stringBytes_readAs q), h, ← read_unique (stringBytes_readAs q')]

theorem reads_string_unique {t : Nat} {c : Bytes} {q q' : Str} (h : ReadsString t c q) (h' : ReadsString t c q') : q = q' := by
  have key : ∀ {t c q}, ReadsString t c q → c = stringBytes q := by
    intro t c q h; cases h <;> rfl
  exact stringBytes_inj ((key h).symm.trans (key h'))

theorem twoDigits_inj {a b : Nat} (ha : a < 100) (hb : b < 100) {q q' : Bytes} (h : twoDigits a ++ q = twoDigits b ++ q') : a = b ∧ q = q' := by
  simp only [twoDigits, List.cons_append, List.nil_append, List.cons.injEq] at h
  obtain ⟨h1, h2, h3⟩ := h
  have g1 := congrArg UInt8.toNat h1
  have g2 := congrArg UInt8.toNat h2
  rw [u8_toNat (by omega), u8_toNat (by omega)] at g1 g2
  exact ⟨by omega, h3⟩

theorem month_length_le (y m : Nat) : monthLength y m ≤ 31 := by
  unfold monthLength
  repeat' split
  all_goals omega

theorem reads_time_unique {c : Bytes} {x x' : GoTime} (h : ReadsTime c x) (h' : ReadsTime c x') : x = x' := by
  cases h with
  | mk y m dd hh mi ss h1 h2 h3 h4 h5 h6 h7 h8 =>
    generalize hc : (twoDigits (y / 100) ++ twoDigits (y % 100) ++ twoDigits m ++ twoDigits dd ++ twoDigits hh ++ twoDigits mi ++ twoDigits ss ++ [90] : Bytes) = c at h'
    cases h' with
    | mk y' m' dd' hh' mi' ss' g1 g2 g3 g4 g5 g6 g7 g8 =>
      have hl := month_length_le y m
      have hl' := month_length_le y' m'
      simp only [List.append_assoc] at hc
      obtain ⟨e1, hc⟩ := twoDigits_inj (by omega) (by omega) hc
      obtain ⟨e2, hc⟩ := twoDigits_inj (by omega) (by omega) hc
      obtain ⟨e3, hc⟩ := twoDigits_inj (by omega) (by omega) hc
      obtain ⟨e4, hc⟩ := twoDigits_inj (by omega) (by omega) hc
      obtain ⟨e5, hc⟩ := twoDigits_inj (by omega) (by omega) hc
      obtain ⟨e6, hc⟩ := twoDigits_inj (by omega) (by omega) hc
      obtain ⟨e7, -⟩ := twoDigits_inj (by omega) (by omega) hc
      have : y = y' := by omega
      subst this e3 e4 e5 e6 e7
      rfl

theorem reads_simple_unique {k : GoKind} {t : Nat} {c : Bytes} {v v' : GoVal} (h : ReadsSimple k t c v) (h' : ReadsSimple k t c v') : v = v' := by
  cases h <;> cases h'
  case string.string h1 _ h2 => rw [reads_string_unique h1 h2]
  case time.time h1 _ h2 => rw [reads_time_unique h1 h2]
  case bytes.bytes => rfl
  case bits.bits h1 _ _ h2 => rw [h1] at h2; cases h2; rfl
  all_goals
    rename_i h1 _ h2
    rw [h1] at h2
    cases h2
    rfl

/-! ### All values -/

mutual

theorem zero_unique (hd : (declared f.decls).Nodup) (hdot : ∀ sp, Declares f sp → '.' ∉ sp.name) : ∀ {n : Str} {k : GoKind} {v v' : GoVal},
    Zero f n k v → Zero f n k v' → v = v'
  | _, _, _, _, .bool _, h => by cases h; rfl
  | _, _, _, _, .int _, h => by cases h; rfl
  | _, _, _, _, .string _, h => by cases h; rfl
  | _, _, _, _, .bytes _, h => by cases h; rfl
  | _, _, _, _, .big _, h => by cases h; rfl
  | _, _, _, _, .bits _, h => by cases h; rfl
  | _, _, _, _, .enum _, h => by cases h; rfl
  | _, _, _, _, .oid _, h => by cases h; rfl
  | _, _, _, _, .time _, h => by cases h; rfl
  | _, _, _, _, .raw _, h => by cases h; rfl
  | _, _, _, _, .iface _, h => by cases h; rfl
  | _, _, _, _, .slice _ _, h => by cases h; rfl
  | _, _, _, _, .struct _ _ _ h1, h => by
    cases h with
    | struct _ _ _ h2 => rw [zero_fields_unique hd hdot h1 h2]

theorem zero_fields_unique (hd : (declared f.decls).Nodup) (hdot : ∀ sp, Declares f sp → '.' ∉ sp.name) : ∀ {fs : List GoField} {vs vs' : List GoFieldVal},
    ZeroFields f fs vs → ZeroFields f fs vs' → vs = vs'
  | _, _, _, .nil, h => by cases h; rfl
  | _, _, _, .cons _ _ _ _ _ _ _ _ h1 h2 h3, h => by
    cases h with
    | cons _ _ _ _ _ _ _ _ h4 h5 h6 =>
      obtain ⟨rfl, rfl⟩ := under_unique hd hdot h1 h4
      rw [zero_unique hd hdot h2 h5, zero_fields_unique hd hdot h3 h6]

end

theorem lacks_raw {p : FieldParams} {n : Str} {b c rest : Bytes} {x : Header} (h : Lacks p n .raw b) (h' : findRaw p b = .element x c rest) : False := by
  cases h with
  | tag _ _ _ _ h _ => cases h
  | raw _ h => rw [h'] at h; cases h

theorem lacks_element {p : FieldParams} {n : Str} {k : GoKind} {b c rest : Bytes} {tag t : Nat} {comp : Bool} (h : Lacks p n k b)
    (h1 : kindTag n k = some (tag, comp)) (h2 : findElement p tag comp b = .element t c rest) : False := by
  cases h with
  | tag _ _ _ _ h3 h4 =>
    rw [h1] at h3
    cases h3
    rw [h2] at h4
    cases h4
  | raw _ h => cases h1
  | iface => cases h1

theorem lacks_iface {p : FieldParams} {n : Str} {b l : Bytes} {x : Header} (h : Lacks p n .iface b) (h' : parseHeader b = some (x, l)) : False := by
  cases h with
  | tag _ _ _ _ h _ => cases h
  | iface => cases h'

theorem anyKind_tags {t : Nat} {k : GoKind} (h : anyKind t = some k) : t ∈ anyTags := by
  unfold anyKind at h
  split at h <;> first | decide | cases h

theorem reads_any_unique {x : Header} {c : Bytes} {v v' : GoVal} (h : ReadsAny x c v) (h' : ReadsAny x c v') : v = v' := by
  have key : ∀ {k}, x.compound = false → x.cls = 0 → anyKind x.tag = some k → ¬ (x.compound = true ∨ x.cls ≠ 0 ∨ x.tag ∉ anyTags) := by
    rintro k h1 h2 h3 (h | h | h)
    · rw [h1] at h; cases h
    · exact h h2
    · exact h (anyKind_tags h3)
  cases h with
  | value k v h1 h2 h3 h4 =>
    cases h' with
    | value k' v' _ _ h5 h6 =>
      rw [h3] at h5
      cases h5
      rw [reads_simple_unique h4 h6]
    | nothing h5 => exact absurd h5 (key h1 h2 h3)
  | nothing h1 =>
    cases h' with
    | value k' v' h2 h3 h5 h6 => exact absurd h1 (key h2 h3 h5)
    | nothing h5 => rfl

/-- What is read is unique. -/
theorem reads_unique (hd : (declared f.decls).Nodup) (hdot : ∀ sp, Declares f sp → '.' ∉ sp.name) {e : GoExpr} {p : FieldParams} {b : Bytes} {v v' : GoVal}
    {rest rest' : Bytes} (h : Decodes f u e p b v rest) (h' : Decodes f u e p b v' rest') : v = v' ∧ rest = rest' := by
  refine Decodes.rec (motive_1 := fun e p b v rest _ => ∀ v' rest', Decodes f u e p b v' rest' → v = v' ∧ rest = rest')
    (motive_2 := fun n k t c v _ => ∀ v', ReadsBody f u n k t c v' → v = v')
    (motive_3 := fun fs b vs rest _ => ∀ vs' rest', ReadsFields f u fs b vs' rest' → vs = vs' ∧ rest = rest')
    (motive_4 := fun e b vs _ => ∀ vs', ReadsElems f u e b vs' → vs = vs') ?missing ?raw ?iface ?element ?simple ?struct ?slice ?fnil ?fcons ?enil ?econs h v' rest' h'
  case missing =>
    intro e p b n k z h1 h2 _ h5 v' rest' h
    cases h with
    | missing _ _ _ _ _ _ g1 g2 _ g5 =>
      obtain ⟨rfl, rfl⟩ := under_unique hd hdot h1 g1
      rw [zero_unique hd hdot h5 g5]
      exact ⟨rfl, rfl⟩
    | raw _ _ _ _ _ _ _ g1 g2 =>
      obtain ⟨rfl, rfl⟩ := under_unique hd hdot h1 g1
      exact (lacks_raw h2 g2).elim
    | iface _ _ _ _ _ _ _ g1 g2 =>
      obtain ⟨rfl, rfl⟩ := under_unique hd hdot h1 g1
      exact (lacks_iface h2 g2).elim
    | element _ _ _ _ _ _ _ _ _ _ _ g1 g2 g3 g4 =>
      obtain ⟨rfl, rfl⟩ := under_unique hd hdot h1 g1
      exact (lacks_element h2 g2 g3).elim
  case iface =>
    intro e p b n x l v h1 h2 h3 h4 v' rest' h
    cases h with
    | missing _ _ _ _ _ _ g1 g2 _ g5 =>
      obtain ⟨rfl, rfl⟩ := under_unique hd hdot h1 g1
      exact (lacks_iface g2 h2).elim
    | raw _ _ _ _ _ _ _ g1 g2 =>
      obtain ⟨-, h⟩ := under_unique hd hdot h1 g1
      cases h
    | iface _ _ _ _ _ _ _ g1 g2 g3 g4 =>
      rw [h2] at g2
      cases g2
      exact ⟨reads_any_unique h4 g4, rfl⟩
    | element _ _ _ _ _ _ _ _ _ _ _ g1 g2 g3 g4 =>
      obtain ⟨rfl, rfl⟩ := under_unique hd hdot h1 g1
      cases g2
  case raw =>
    intro e p b n x c rest h1 h2 v' rest' h
    cases h with
    | missing _ _ _ _ _ _ g1 g2 _ g5 =>
      obtain ⟨rfl, rfl⟩ := under_unique hd hdot h1 g1
      exact (lacks_raw g2 h2).elim
    | raw _ _ _ _ _ _ _ g1 g2 =>
      rw [h2] at g2
      cases g2
      exact ⟨rfl, rfl⟩
    | iface _ _ _ _ _ _ _ g1 g2 =>
      obtain ⟨-, h⟩ := under_unique hd hdot h1 g1
      cases h
    | element _ _ _ _ _ _ _ _ _ _ _ g1 g2 g3 g4 =>
      obtain ⟨rfl, rfl⟩ := under_unique hd hdot h1 g1
      cases g2
  case element =>
    intro e p b n k tag comp t c rest v h1 h2 h3 _ ih v' rest' h
    cases h with
    | missing _ _ _ _ _ _ g1 g2 _ g5 =>
      obtain ⟨rfl, rfl⟩ := under_unique hd hdot h1 g1
      exact (lacks_element g2 h2 h3).elim
    | raw _ _ _ _ _ _ _ g1 g2 =>
      obtain ⟨rfl, rfl⟩ := under_unique hd hdot h1 g1
      cases h2
    | iface _ _ _ _ _ _ _ g1 g2 =>
      obtain ⟨rfl, rfl⟩ := under_unique hd hdot h1 g1
      cases h2
    | element _ _ _ _ _ _ _ _ _ _ _ g1 g2 g3 g4 =>
      obtain ⟨rfl, rfl⟩ := under_unique hd hdot h1 g1
      rw [h2] at g2
      cases g2
      rw [h3] at g3
      cases g3
      exact ⟨ih _ g4, rfl⟩
  case simple =>
    intro n k t c v h1 v' h
    cases h with
    | simple _ _ _ _ _ h2 => exact reads_simple_unique h1 h2
    | struct => cases h1
    | slice => cases h1
  case struct =>
    intro n fs t c rest vs _ ih v' h
    cases h with
    | simple _ _ _ _ _ h2 => cases h2
    | struct _ _ _ _ _ _ h2 => rw [(ih _ _ h2).1]
  case slice =>
    intro n e t c vs _ _ _ _ _ ih v' h
    cases h with
    | simple _ _ _ _ _ h2 => cases h2
    | slice _ _ _ _ _ _ _ _ _ h2 => rw [ih _ h2]
  case fnil => intro b vs' rest' h; cases h; exact ⟨rfl, rfl⟩
  case fcons =>
    intro n e tag fs b b' rest v vs _ _ _ ih1 ih2 vs' rest' h
    cases h with
    | cons _ _ _ _ _ _ _ _ _ _ g1 g2 =>
      obtain ⟨rfl, rfl⟩ := ih1 _ _ g1
      obtain ⟨rfl, rfl⟩ := ih2 _ _ g2
      exact ⟨rfl, rfl⟩
  case enil =>
    intro e vs' h
    cases h with
    | nil => rfl
    | cons _ _ _ _ _ h _ _ => exact absurd rfl h
  case econs =>
    intro e b b' v vs h0 _ _ ih1 ih2 vs' h
    cases h with
    | nil => exact absurd rfl h0
    | cons _ _ _ _ _ _ g1 g2 =>
      obtain ⟨rfl, rfl⟩ := ih1 _ _ g1
      rw [ih2 _ g2]

/-! ### Values that are read are of the type -/

/-- Values of a kind, with the name of the type. -/
inductive KindVal (f : GoFile) (n : Str) : GoKind → GoVal → Prop
  | bool (b : Bool) : KindVal f n .bool (.bool b)
  | int (m : Int) : GoInt m → KindVal f n .int (.int m)
  | string (q : Str) : KindVal f n .string (.str q)
  | bytes (b : Option Bytes) : KindVal f n .bytes (.bytes b)
  | big (m : Option Int) : KindVal f n .big (.big m)
  | bits (b : Option Bytes) (m : Int) : GoInt m → KindVal f n .bits (.bits b m)
  | enum (m : Int) : GoInt m → KindVal f n .enum (.enum m)
  | oid (l : Option (List Int)) : (∀ x, l = some x → ∀ m ∈ x, GoInt m) → KindVal f n .oid (.oid l)
  | time (t : GoTime) : KindVal f n .time (.time t)
  | raw (c t : Int) (k : Bool) (b b' : Option Bytes) : GoInt c → GoInt t → KindVal f n .raw (.raw c t k b b')
  | iface : KindVal f n .iface .nilIface
  | boxed (e : GoExpr) (v : GoVal) : Typed f e v → v ≠ .nilIface → (∀ w, v ≠ .iface w) → KindVal f n .iface (.iface v)
  | slice (e : GoExpr) (z : Bool) (l : List GoVal) : (z = true → l = []) → TypedElems f e l → KindVal f n (.slice e) (.slice n z l)
  | struct (fs : List GoField) (vs : List GoFieldVal) : TypedFields f fs vs → KindVal f n (.struct fs) (.struct vs)

theorem kindVal_rename {n : Str} {k : GoKind} {v : GoVal} (m : Str) (h : KindVal f n k v) : KindVal f m k (v.named m) ∧ (v.named m).named n = v := by
  cases h with
  | slice e z l h1 h2 => exact ⟨.slice _ _ _ h1 h2, rfl⟩
  | struct fs vs h => exact ⟨.struct _ _ h, rfl⟩
  | bool => exact ⟨.bool _, rfl⟩
  | int _ h => exact ⟨.int _ h, rfl⟩
  | string => exact ⟨.string _, rfl⟩
  | bytes => exact ⟨.bytes _, rfl⟩
  | big => exact ⟨.big _, rfl⟩
  | bits _ _ h => exact ⟨.bits _ _ h, rfl⟩
  | enum _ h => exact ⟨.enum _ h, rfl⟩
  | oid _ h => exact ⟨.oid _ h, rfl⟩
  | time => exact ⟨.time _, rfl⟩
  | raw _ _ _ _ _ h1 h2 => exact ⟨.raw _ _ _ _ _ h1 h2, rfl⟩
  | iface => exact ⟨.iface, rfl⟩
  | boxed _ _ h1 h2 h3 => exact ⟨.boxed _ _ h1 h2 h3, rfl⟩

theorem kindVal_typed {e : GoExpr} {n : Str} {k : GoKind} {v : GoVal} (h : Underlies f e n k) (hv : KindVal f n k v) : Typed f e v := by
  induction h generalizing v with
  | bool hp => cases hv; exact .bool _ hp
  | int64 hp => cases hv with | int _ h => exact .int64 _ hp h
  | float64 hp => cases hv
  | string hp => cases hv; exact .string _ hp
  | bytes hp => cases hv; exact .bytes _ hp
  | big => cases hv; exact .big _
  | bits => cases hv with | bits _ _ h => exact .bits _ _ h
  | enumerated => cases hv with | enum _ h => exact .enumerated _ h
  | oid => cases hv with | oid _ h => exact .oid _ h
  | time => cases hv; exact .time _
  | raw => cases hv with | raw _ _ _ _ _ h1 h2 => exact .raw _ _ _ _ _ h1 h2
  | iface =>
    cases hv with
    | iface => exact .nil
    | boxed _ _ h1 h2 h3 => exact .iface _ _ h1 h2 h3
  | slice e hne => cases hv with | slice _ _ _ h1 h2 => exact .slice _ _ _ hne h1 h2
  | struct fs => cases hv with | struct _ _ h => exact .struct _ _ h
  | «alias» n m e k h1 _ ih => exact .alias _ _ _ h1 (ih hv)
  | defined n m e k h1 _ _ ih =>
    obtain ⟨h2, h3⟩ := kindVal_rename m hv
    have := Typed.defined n e _ h1 (ih h2)
    rwa [h3] at this

theorem goInt_zero : GoInt 0 := by unfold GoInt; decide

theorem zero_kind {n : Str} {k : GoKind} {v : GoVal} (h : Zero f n k v) : KindVal f n k v := by
  refine Spec.Zero.rec (motive_1 := fun n k v _ => KindVal f n k v) (motive_2 := fun fs vs _ => TypedFields f fs vs)
    ?_ ?_ ?_ ?_ ?_ ?_ ?_ ?_ ?_ ?_ ?_ ?_ ?_ ?_ ?_ h
  · exact fun _ => .bool _
  · exact fun _ => .int _ goInt_zero
  · exact fun _ => .string _
  · exact fun _ => .bytes _
  · exact fun _ => .big _
  · exact fun _ => .bits _ _ goInt_zero
  · exact fun _ => .enum _ goInt_zero
  · exact fun _ => .oid _ (by simp)
  · exact fun _ => .time _
  · exact fun _ => .raw _ _ _ _ _ goInt_zero goInt_zero
  · exact fun _ => .iface
  · exact fun _ e => .slice _ _ _ (fun _ => rfl) (.nil _)
  · exact fun _ fs vs _ ih => .struct _ _ ih
  · exact .nil
  · exact fun n e tag m k v fs vs h1 _ _ ih1 ih2 => .cons _ _ _ _ _ _ (kindVal_typed h1 ih1) ih2

theorem parseInt64_goInt {q : Str} {n : Int} (h : parseInt64 q = some n) : GoInt n := by
  rw [parseInt64] at h
  split at h
  · split at h
    · cases h; assumption
    · cases h
  · cases h

theorem either {α : Type} {P : α → Prop} {c : Prop} [Decidable c] {a b : α} (ha : P a) (hb : P b) : P (if c then a else b) := by
  by_cases h : c
  · rwa [if_pos h]
  · rwa [if_neg h]

theorem readPart_dflt {p : FieldParams} {q : Str} (h : ∀ n, p.dflt = some n → GoInt n) : ∀ n, (readPart p q).dflt = some n → GoInt n := by
  have hP : ∀ P : FieldParams → Prop, (∀ x, P x ↔ ∀ n, x.dflt = some n → GoInt n) → P (readPart p q) := by
    intro P hP
    have h' : ∀ x : FieldParams, x.dflt = p.dflt → P x := fun x hx => (hP x).2 (by rw [hx]; exact h)
    unfold readPart
    refine either (h' _ rfl) (either (h' _ rfl) (either (h' _ rfl) (either (h' _ rfl) (either (h' _ rfl) (either (h' _ rfl) (either (h' _ rfl) (either (h' _ rfl)
      (either ?_ (either ?_ (either (h' _ rfl) (either (h' _ rfl) (either (h' _ rfl) (either (h' _ rfl) (h' _ rfl))))))))))))))
    · cases hp : parseInt64 (q.drop 8) with
      | none => exact h' _ rfl
      | some m => exact (hP _).2 fun n hn => by cases hn; exact parseInt64_goInt hp
    · cases hp : parseInt64 (q.drop 4) with
      | none => exact h' _ rfl
      | some m => exact h' _ rfl
  exact hP (fun x => ∀ n, x.dflt = some n → GoInt n) fun _ => Iff.rfl

theorem readParts_dflt : ∀ (fuel : Nat) (p : FieldParams) (q : Str), (∀ n, p.dflt = some n → GoInt n) → ∀ n, (readParts fuel p q).dflt = some n → GoInt n
  | 0, p, q, h => by rw [readParts]; exact h
  | fuel + 1, p, q, h => by
    rw [readParts]
    split
    · exact h
    · exact readParts_dflt fuel _ _ (readPart_dflt h)

theorem fieldParams_dflt (tag : Option Str) : ∀ n, (fieldParams tag).dflt = some n → GoInt n := by
  cases tag with
  | none => intro n h; cases h
  | some lit => exact readParts_dflt _ _ _ (by simp)

theorem setDefault_kind {p : FieldParams} {n : Str} {k : GoKind} {z : GoVal} (hp : ∀ m, p.dflt = some m → GoInt m) (h : KindVal f n k z) :
    KindVal f n k (setDefault p z) := by
  have key : ∀ m, GoInt m → GoInt (p.dflt.getD m) := by
    intro m hm
    cases hd : p.dflt with
    | none => exact hm
    | some q => exact hp q hd
  cases h with
  | int m h => exact .int _ (key m h)
  | enum m h => exact .enum _ (key m h)
  | slice e z l h1 h2 => exact .slice _ _ _ h1 h2
  | struct fs vs h => exact .struct _ _ h
  | bool => exact .bool _
  | string => exact .string _
  | bytes => exact .bytes _
  | big => exact .big _
  | bits _ _ h => exact .bits _ _ h
  | oid _ h => exact .oid _ h
  | time => exact .time _
  | raw _ _ _ _ _ h1 h2 => exact .raw _ _ _ _ _ h1 h2
  | iface => exact .iface
  | boxed _ _ h1 h2 h3 => exact .boxed _ _ h1 h2 h3

theorem readInt64_goInt {c : Bytes} {n : Int} (h : readInt64 c = some n) : GoInt n := by
  rw [readInt64] at h
  split at h
  case isFalse => cases h
  case isTrue hc =>
    cases h
    rw [bigEndian_eq]
    have h1 := octetsValue_lt c
    have h2 : (256 : Nat) ^ c.length ≤ 256 ^ 8 := Nat.pow_le_pow_right (by decide) hc.2
    have h3 : ((256 ^ c.length : Nat) : Int) = (256 : Int) ^ c.length := by push_cast; rfl
    unfold GoInt
    rw [← h3]
    generalize octetsValue c = a at *
    generalize 256 ^ c.length = b at *
    have h4 : (256 : Nat) ^ 8 = 18446744073709551616 := by decide
    rw [h4] at h2
    clear h3 h4 hc
    split <;> omega

theorem readInt32_goInt {c : Bytes} {n : Int} (h : readInt32 c = some n) : GoInt n := by
  rw [readInt32] at h
  split at h
  · rename_i hm
    split at h
    · cases h; exact readInt64_goInt hm
    · cases h
  · cases h

theorem readBits_goInt {c b : Bytes} {n : Int} (h : readBits c = some (b, n)) (hl : c.length < 1000000000000000000) : GoInt n := by
  cases c with
  | nil => cases h
  | cons o q =>
    rw [readBits] at h
    split at h
    · cases h
    · simp only [Option.some.injEq, Prod.mk.injEq] at h
      obtain ⟨-, rfl⟩ := h
      have := o.toNat_lt
      simp only [List.length_cons] at hl
      unfold GoInt
      omega

theorem parseBase128_le : ∀ {c : Bytes} {i r n : Nat} {c' : Bytes}, parseBase128 i r c = some (n, c') → n ≤ 2147483647 ∧ c'.length ≤ c.length
  | [], _, _, _, _, h => by rw [parseBase128] at h; cases h
  | o :: c, i, r, n, c', h => by
    rw [parseBase128] at h
    repeat' split at h
    · cases h
    · cases h
    · cases h
    · cases h; simp only [List.length_cons]; omega
    · have := parseBase128_le h; simp only [List.length_cons]; omega

theorem readArcs_le : ∀ {fuel : Nat} {c : Bytes} {o : List Int}, readArcs fuel c = some o → ∀ n ∈ o, 0 ≤ n ∧ n ≤ 2147483647
  | fuel, [], o, h => by rw [readArcs] at h; cases h; simp
  | 0, _ :: _, o, h => by rw [readArcs] at h; cases h; simp
  | fuel + 1, a :: c, o, h => by
    rw [readArcs] at h
    · split at h
      · cases h
      · rename_i hb
        split at h
        · cases h
        · rename_i hr
          cases h
          have h1 := parseBase128_le hb
          have h2 := readArcs_le hr
          intro n hn
          rcases List.mem_cons.1 hn with rfl | hn
          · omega
          · exact h2 n hn
    · simp

theorem readOid_goInt {c : Bytes} {o : List Int} (h : readOid c = some o) : ∀ n ∈ o, GoInt n := by
  rw [readOid] at h
  split at h
  · rename_i m q hr
    have hle := readArcs_le hr
    have hm := hle m (by simp)
    cases h
    intro n hn
    have hq : ∀ n ∈ q, GoInt n := fun n hn => by have := hle n (by simp [hn]); unfold GoInt; omega
    split at hn <;> simp only [List.mem_cons] at hn <;> rcases hn with rfl | rfl | hn
    · unfold GoInt; omega
    · unfold GoInt; omega
    · exact hq n hn
    · unfold GoInt; omega
    · unfold GoInt; omega
    · exact hq n hn
  · cases h

theorem simple_kind {n : Str} {k : GoKind} {t : Nat} {c : Bytes} {v : GoVal} (h : ReadsSimple k t c v) (hl : c.length < 1000000000000000000) :
    KindVal f n k v := by
  cases h with
  | bool => exact .bool _
  | int _ _ _ h => exact .int _ (readInt64_goInt h)
  | enum _ _ _ h => exact .enum _ (readInt32_goInt h)
  | big => exact .big _
  | string => exact .string _
  | bytes => exact .bytes _
  | bits _ _ _ _ h => exact .bits _ _ (readBits_goInt h hl)
  | oid _ _ _ h => exact .oid _ fun x hx => by cases hx; exact readOid_goInt h
  | time => exact .time _

theorem parseLength_le : ∀ {k n : Nat} {c : Bytes} {m : Nat} {c' : Bytes}, parseLength k n c = some (m, c') → c'.length ≤ c.length
  | 0, _, _, _, _, h => by rw [parseLength] at h; cases h; exact Nat.le_refl _
  | _ + 1, _, [], _, _, h => by rw [parseLength] at h; cases h
  | k + 1, n, b :: c, m, c', h => by
    rw [parseLength] at h
    repeat' split at h
    · cases h
    · cases h
    · have := parseLength_le h; simp only [List.length_cons]; omega

theorem parseTag_le {b : UInt8} {c c' : Bytes} {n : Nat} (h : parseTag b c = some (n, c')) : c'.length ≤ c.length := by
  rw [parseTag] at h
  repeat' split at h
  · cases h
  · rename_i hb _
    cases h; exact (parseBase128_le hb).2
  · cases h
  · cases h; exact Nat.le_refl _

theorem parseHeader_le {c c' : Bytes} {x : Header} (h : parseHeader c = some (x, c')) : c'.length ≤ c.length := by
  cases c with
  | nil => cases h
  | cons b c =>
    rw [parseHeader] at h
    simp only [List.length_cons]
    split at h
    · cases h
    · cases h
    · rename_i ht
      have h1 := parseTag_le ht
      simp only [List.length_cons] at h1
      split at h
      · cases h; omega
      · split at h
        · cases h
        · split at h
          · cases h
          · rename_i hk
            have h2 := parseLength_le hk
            split at h
            · cases h
            · cases h; omega

theorem found_le {c1 : Prop} [Decidable c1] {n ut : Nat} {b : Bytes} {t : Nat} {c rest : Bytes}
    (h : (if c1 then Found.missing else if b.length < n then .error else .element ut (b.take n) (b.drop n)) = .element t c rest) :
    c.length ≤ b.length ∧ rest.length ≤ b.length := by
  by_cases h1 : c1
  · rw [if_pos h1] at h; cases h
  · rw [if_neg h1] at h
    by_cases h2 : b.length < n
    · rw [if_pos h2] at h; cases h
    · rw [if_neg h2] at h
      cases h
      simp only [List.length_take, List.length_drop]
      omega

theorem findInner_le {p : FieldParams} {tag : Nat} {k : Bool} {x : Header} {b : Bytes} {t : Nat} {c rest : Bytes}
    (h : findInner p tag k x b = .element t c rest) : c.length ≤ b.length ∧ rest.length ≤ b.length := found_le h

theorem findElement_le {p : FieldParams} {tag : Nat} {k : Bool} {b : Bytes} {t : Nat} {c rest : Bytes}
    (h : findElement p tag k b = .element t c rest) : c.length ≤ b.length ∧ rest.length ≤ b.length := by
  rw [findElement] at h
  by_cases hb : b = []
  · rw [if_pos hb] at h; cases h
  rw [if_neg hb] at h
  cases hh : parseHeader b with
  | none => rw [hh] at h; cases h
  | some q =>
    obtain ⟨x, l⟩ := q
    rw [hh] at h
    simp only at h
    have h1 := parseHeader_le hh
    by_cases he : p.explicit = true
    · rw [if_pos he] at h
      by_cases hl : l = []
      · rw [if_pos hl] at h; cases h
      rw [if_neg hl] at h
      by_cases hc : x.cls = (if p.application = true then 1 else 2) ∧ p.tag = some (x.tag : Int) ∧ (x.length = 0 ∨ x.compound = true)
      · rw [if_pos hc] at h
        by_cases h0 : x.length = 0
        · rw [if_pos h0] at h; cases h
        rw [if_neg h0] at h
        cases hh' : parseHeader l with
        | none => rw [hh'] at h; cases h
        | some q =>
          obtain ⟨x', l'⟩ := q
          rw [hh'] at h
          have h2 := parseHeader_le hh'
          have h3 := findInner_le h
          omega
      · rw [if_neg hc] at h; cases h
    · rw [if_neg he] at h
      have h3 := findInner_le h
      omega

theorem parseHeader_tag {c c' : Bytes} {x : Header} (h : parseHeader c = some (x, c')) : x.cls < 4 ∧ x.tag ≤ 2147483647 := by
  cases c with
  | nil => cases h
  | cons b c =>
    have hb := b.toNat_lt
    have htag : ∀ {n : Nat} {c' : Bytes}, parseTag b c = some (n, c') → n ≤ 2147483647 := by
      intro n c' h
      rw [parseTag] at h
      repeat' split at h
      · cases h
      · rename_i hb _
        cases h; exact (parseBase128_le hb).1
      · cases h
      · cases h; omega
    rw [parseHeader] at h
    split at h
    · cases h
    · cases h
    · rename_i ht
      have h1 := htag ht
      split at h
      · cases h; exact ⟨by simp only; omega, h1⟩
      · split at h
        · cases h
        · split at h
          · cases h
          · split at h
            · cases h
            · cases h; exact ⟨by simp only; omega, h1⟩

theorem takeRaw_le {x y : Header} {b c rest : Bytes} (h : takeRaw x b = .element y c rest) : y = x ∧ rest.length ≤ b.length := by
  rw [takeRaw] at h
  split at h
  · cases h
  · cases h; exact ⟨rfl, by simp⟩

theorem findRaw_le {p : FieldParams} {b c rest : Bytes} {x : Header} (h : findRaw p b = .element x c rest) :
    x.cls < 4 ∧ x.tag ≤ 2147483647 ∧ rest.length ≤ b.length := by
  rw [findRaw] at h
  split at h
  · cases h
  · split at h
    · cases h
    · rename_i y l hh
      have h1 := parseHeader_tag hh
      have h2 := parseHeader_le hh
      have key : takeRaw y l = .element x c rest → x.cls < 4 ∧ x.tag ≤ 2147483647 ∧ rest.length ≤ b.length := by
        intro h
        obtain ⟨rfl, h3⟩ := takeRaw_le h
        exact ⟨h1.1, h1.2, by omega⟩
      have k1 : ∀ (q : Prop) [Decidable q], (if q then takeRaw y l else .missing) = .element x c rest →
          x.cls < 4 ∧ x.tag ≤ 2147483647 ∧ rest.length ≤ b.length := by
        intro q _ h
        by_cases hq : q
        · rw [if_pos hq] at h; exact key h
        · rw [if_neg hq] at h; cases h
      have k2 : ∀ (q : Prop) [Decidable q], (if q then .missing else takeRaw y l) = .element x c rest →
          x.cls < 4 ∧ x.tag ≤ 2147483647 ∧ rest.length ≤ b.length := by
        intro q _ h
        by_cases hq : q
        · rw [if_pos hq] at h; cases h
        · rw [if_neg hq] at h; exact key h
      by_cases he : p.explicit = true
      · rw [if_pos he] at h
        split at h
        · cases h
        · exact k1 _ h
      · rw [if_neg he] at h
        split at h
        · exact k2 _ h
        · exact key h

/-- So is what is put into an interface. -/
theorem any_kind {n : Str} {x : Header} {c : Bytes} {v : GoVal} (hpre : ∀ n ∈ predeclared, n ∉ declared f.decls) (h : ReadsAny x c v)
    (hl : c.length < 1000000000000000000) : KindVal f n .iface v := by
  cases h with
  | nothing => exact .iface
  | value k v _ _ hk h =>
    have hv := simple_kind (f := f) (n := []) h hl
    have hb : v ≠ .nilIface ∧ ∀ w, v ≠ .iface w := by
      generalize x.tag = t at h
      cases h <;> exact ⟨by simp, by simp⟩
    have key : ∀ e, Underlies f e [] k → KindVal f n .iface (.iface v) := fun e he =>
      .boxed e v (kindVal_typed he hv) hb.1 hb.2
    unfold anyKind at hk
    split at hk <;> cases hk
    · exact key _ (.int64 (hpre _ (by decide)))
    · exact key _ .bits
    · exact key _ (.bytes (hpre _ (by decide)))
    · exact key _ .oid
    · exact key _ (.string (hpre _ (by decide)))
    · exact key _ (.string (hpre _ (by decide)))
    · exact key _ (.string (hpre _ (by decide)))
    · exact key _ (.string (hpre _ (by decide)))
    · exact key _ .time

/-- What is read is a value of the type. -/
theorem reads_typed (hpre : ∀ n ∈ predeclared, n ∉ declared f.decls) {e : GoExpr} {p : FieldParams} {b : Bytes} {v : GoVal} {rest : Bytes} (h : Decodes f u e p b v rest)
    (hp : ∀ n, p.dflt = some n → GoInt n) (hl : b.length < 1000000000000000000) : Typed f e v := by
  refine (Decodes.rec (motive_1 := fun e p b v rest _ => (∀ n, p.dflt = some n → GoInt n) → b.length < 1000000000000000000 →
      Typed f e v ∧ rest.length ≤ b.length)
    (motive_2 := fun n k t c v _ => c.length < 1000000000000000000 → KindVal f n k v)
    (motive_3 := fun fs b vs rest _ => b.length < 1000000000000000000 → TypedFields f fs vs)
    (motive_4 := fun e b vs _ => b.length < 1000000000000000000 → TypedElems f e vs)
    ?missing ?raw ?iface ?element ?simple ?struct ?slice ?fnil ?fcons ?enil ?econs h hp hl).1
  case missing =>
    intro e p b n k z h1 _ _ h5 hp _
    exact ⟨kindVal_typed h1 (setDefault_kind hp (zero_kind h5)), Nat.le_refl _⟩
  case raw =>
    intro e p b n x c rest h1 h2 hp hl
    obtain ⟨h3, h4, h5⟩ := findRaw_le h2
    exact ⟨kindVal_typed h1 (.raw _ _ _ _ _ (by unfold GoInt; omega) (by unfold GoInt; omega)), h5⟩
  case iface =>
    intro e p b n x l v h1 h2 _ h4 _ hl
    have h5 := parseHeader_le h2
    exact ⟨kindVal_typed h1 (any_kind hpre h4 (by simp; omega)), by simp; omega⟩
  case element =>
    intro e p b n k tag comp t c rest v h1 h2 h3 _ ih _ hl
    have h4 := findElement_le h3
    exact ⟨kindVal_typed h1 (ih (by omega)), h4.2⟩
  case simple => intro n k t c v h1 hl; exact simple_kind h1 hl
  case struct => intro n fs t c rest vs _ ih hl; exact .struct _ _ (ih hl)
  case slice => intro n e t c vs _ _ _ _ _ ih hl; exact .slice _ _ _ (by simp) (ih hl)
  case fnil => intro b _; exact .nil
  case fcons =>
    intro n e tag fs b b' rest v vs _ _ _ ih1 ih2 hl
    obtain ⟨h1, h2⟩ := ih1 (fieldParams_dflt tag) hl
    exact .cons _ _ _ _ _ _ h1 (ih2 (by omega))
  case enil => intro e _; exact .nil _
  case econs =>
    intro e b b' v vs h0 _ _ ih1 ih2 hl
    obtain ⟨h1, h2⟩ := ih1 (by simp) hl
    exact .cons _ _ _ h1 (ih2 (by omega))

end Asn1go.Deco

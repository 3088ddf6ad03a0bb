import Verif.Props.Again
import Mathlib.Data.List.Forall2

/-! What is read depends on the octets that are used: C95. -/

namespace Asn1go.Props

open Spec CG Enco Deco

/-! ### C95: truncated encodings and what follows -/

theorem parseBase128_cut : ∀ {k n : Nat} {b l : Bytes} {x : Nat}, parseBase128 k n b = some (x, l) →
    ∃ pre, b = pre ++ l ∧ ∀ y, parseBase128 k n (pre ++ y) = some (x, y)
  | _, _, [], _, _, h => by cases h
  | k, n, o :: b, l, x, h => by
    rw [parseBase128] at h
    split at h
    · cases h
    next h1 =>
    split at h
    · cases h
    next h2 =>
    split at h
    next h3 =>
      split at h
      · cases h
      next h4 =>
        cases h
        exact ⟨[o], rfl, fun y => by simp [parseBase128, h1, h2, h3, h4]⟩
    next h3 =>
      obtain ⟨pre, rfl, h5⟩ := parseBase128_cut h
      exact ⟨o :: pre, rfl, fun y => by rw [List.cons_append, parseBase128, if_neg h1, if_neg h2, if_neg h3, h5]⟩

theorem parseLength_cut : ∀ {k n : Nat} {b l : Bytes} {x : Nat}, parseLength k n b = some (x, l) →
    ∃ pre, b = pre ++ l ∧ ∀ y, parseLength k n (pre ++ y) = some (x, y)
  | 0, n, b, l, x, h => by
    rw [parseLength] at h
    cases h
    exact ⟨[], rfl, fun y => rfl⟩
  | _ + 1, _, [], _, _, h => by cases h
  | k + 1, n, o :: b, l, x, h => by
    rw [parseLength] at h
    split at h
    · cases h
    next h1 =>
    split at h
    · cases h
    next h2 =>
      obtain ⟨pre, rfl, h5⟩ := parseLength_cut h
      exact ⟨o :: pre, rfl, fun y => by rw [List.cons_append, parseLength, if_neg h1, if_neg h2, h5]⟩

theorem parseTag_cut {o : UInt8} {b l : Bytes} {n : Nat} (h : parseTag o b = some (n, l)) : ∃ pre, b = pre ++ l ∧ ∀ y, parseTag o (pre ++ y) = some (n, y) := by
  unfold parseTag at h ⊢
  split at h
  next h1 =>
    split at h
    next n' l' h2 =>
      split at h
      · cases h
      next h3 =>
        cases h
        obtain ⟨pre, rfl, h4⟩ := parseBase128_cut h2
        exact ⟨pre, rfl, fun y => by simp [h1, h4, h3]⟩
    · cases h
  next h1 =>
    cases h
    exact ⟨[], rfl, fun y => by simp [h1]⟩

theorem parseHeader_cut {b l : Bytes} {x : Header} (h : parseHeader b = some (x, l)) :
    ∃ pre, pre ≠ [] ∧ b = pre ++ l ∧ ∀ y, parseHeader (pre ++ y) = some (x, y) := by
  cases b with
  | nil => cases h
  | cons o b =>
    rw [parseHeader] at h
    split at h
    · cases h
    · cases h
    next n c l' ht =>
      obtain ⟨pre, rfl, h1⟩ := parseTag_cut ht
      split at h
      next h2 =>
        cases h
        exact ⟨o :: pre ++ [c], by simp, by simp, fun y => by simp [parseHeader, h1, h2]⟩
      next h2 =>
        split at h
        · cases h
        next h3 =>
          split at h
          · cases h
          next k l'' h4 =>
            split at h
            · cases h
            next h5 =>
              cases h
              obtain ⟨pre', rfl, h6⟩ := parseLength_cut h4
              exact ⟨o :: pre ++ c :: pre', by simp, by simp, fun y => by simp [parseHeader, h1, h2, h3, h6, h5]⟩

theorem take_cut {n : Nat} {l : Bytes} (h : n ≤ l.length) (y : Bytes) : (l.take n ++ y).take n = l.take n ∧ (l.take n ++ y).drop n = y ∧ n ≤ (l.take n ++ y).length := by
  have hlen : (l.take n).length = n := by rw [List.length_take]; omega
  refine ⟨?_, ?_, ?_⟩
  · rw [List.take_append_of_le_length (by omega), List.take_of_length_le (by omega)]
  · rw [List.drop_append_of_le_length (by omega), List.drop_of_length_le (by omega), List.nil_append]
  · rw [List.length_append]; omega

theorem findElement_cut {tag t : Nat} {k : Bool} {b c rest : Bytes} (h : findElement {} tag k b = .element t c rest) :
    ∃ used, used ≠ [] ∧ b = used ++ rest ∧ ∀ y, findElement {} tag k (used ++ y) = .element t c y := by
  rw [findElement] at h
  split at h
  · cases h
  split at h
  · cases h
  next x l hh =>
    rw [if_neg (by simp)] at h
    obtain ⟨pre, h0, rfl, h1⟩ := parseHeader_cut hh
    rw [findInner] at h
    simp only at h
    split at h
    · cases h
    next h2 =>
      split at h
      · cases h
      next h3 =>
        rw [Found.element.injEq] at h
        obtain ⟨rfl, rfl, rfl⟩ := h
        refine ⟨pre ++ l.take x.length, by simp [h0], by simp, fun y => ?_⟩
        obtain ⟨k1, k2, k3⟩ := take_cut (n := x.length) (l := l) (by omega) y
        rw [findElement, if_neg (by simp [h0]), List.append_assoc, h1]
        simp only
        rw [if_neg (by simp), findInner]
        simp only
        rw [if_neg h2, if_neg (by omega), k1, k2]

theorem findRaw_cut {b c rest : Bytes} {x : Header} (h : findRaw {} b = .element x c rest) :
    ∃ used, used ≠ [] ∧ b = used ++ rest ∧ ∀ y, findRaw {} (used ++ y) = .element x c y := by
  rw [findRaw] at h
  split at h
  · cases h
  split at h
  · cases h
  next x' l hh =>
    rw [if_neg (by simp)] at h
    obtain ⟨pre, h0, rfl, h1⟩ := parseHeader_cut hh
    simp only [takeRaw] at h
    split at h
    · cases h
    next h3 =>
      rw [FoundRaw.element.injEq] at h
      obtain ⟨rfl, rfl, rfl⟩ := h
      refine ⟨pre ++ l.take x'.length, by simp [h0], by simp, fun y => ?_⟩
      obtain ⟨k1, k2, k3⟩ := take_cut (n := x'.length) (l := l) (by omega) y
      rw [findRaw, if_neg (by simp [h0]), List.append_assoc, h1]
      simp only [takeRaw]
      rw [if_neg (by simp), if_neg (by omega), k1, k2]

/-- What is read depends on the octets that are used only: octets used are there, and whatever follows them, the same value is read and that
is left. -/
theorem C95_used (u : Casing) (f : GoFile) (e : GoExpr) (b : Bytes) (v : GoVal) (rest : Bytes) (h : Unmarshals f u e b v rest) :
    ∃ used, used ≠ [] ∧ b = used ++ rest ∧ ∀ more, Unmarshals f u e (used ++ more) v more := by
  cases h with
  | missing _ _ _ _ _ z h3 h4 h5 => cases h5
  | raw _ _ _ n x c _ h1 h2 =>
    obtain ⟨used, h0, rfl, h3⟩ := findRaw_cut h2
    refine ⟨used, h0, rfl, fun more => ?_⟩
    have := Decodes.raw (u := u) e {} (used ++ more) n x c more h1 (h3 more)
    simpa [Unmarshals] using this
  | iface _ _ _ n x l _ h1 h2 h3 h4 =>
    obtain ⟨pre, h0, rfl, h5⟩ := parseHeader_cut h2
    refine ⟨pre ++ l.take x.length, by simp [h0], by simp, fun more => ?_⟩
    obtain ⟨k1, k2, k3⟩ := take_cut h3 more
    have := Decodes.iface (u := u) e {} (pre ++ (l.take x.length ++ more)) n x _ v h1 (h5 _) k3 (by rw [k1]; exact h4)
    rw [k2, ← List.append_assoc] at this
    exact this
  | element _ _ _ n k tag comp t c _ _ h1 h2 h3 h4 =>
    obtain ⟨used, h0, rfl, h5⟩ := findElement_cut h3
    exact ⟨used, h0, rfl, fun more => .element _ _ _ _ _ _ _ _ _ _ _ h1 h2 (h5 more) h4⟩

/-- C95: nothing is read from an encoding that is cut short. -/
theorem C95_truncated (u : Casing) (fuel : Nat) (p : GenParams) (m : Module) (f : GoFile) (h : generateFile u fuel p m = some (.ok f))
    (hn : NamesOk u m.moduleBody.assignmentList) (hv : NoValName m.moduleBody.assignmentList) (e : GoExpr) (b : Bytes) (v : GoVal)
    (hr : Unmarshals f u e b v []) (b' : Bytes) (hp : b' <+: b) (hne : b' ≠ b) (v' : GoVal) (rest : Bytes) : ¬ Unmarshals f u e b' v' rest := by
  intro h1
  obtain ⟨z, rfl⟩ := hp
  obtain ⟨used, -, rfl, h2⟩ := C95_used u f e b' v' rest h1
  have h3 := h2 (rest ++ z)
  rw [← List.append_assoc] at h3
  have h4 := (C82_unique u fuel p m f h hn hv _ _ _ _ _ _ hr h3).2
  have : z = [] := (List.append_eq_nil_iff.1 h4.symm).2
  exact hne (by rw [this, List.append_nil])

/-- `ReadAll f u e b vs`: values of the type are read one after the other until no octets are left. -/
inductive ReadAll (f : GoFile) (u : Casing) (e : GoExpr) : Bytes → List GoVal → Prop
  | nil : ReadAll f u e [] []
  | cons (b : Bytes) (v : GoVal) (rest : Bytes) (vs : List GoVal) : Unmarshals f u e b v rest → ReadAll f u e rest vs → ReadAll f u e b (v :: vs)

/-- C95: octets that are read one by one can be put one after the other; then all the values are read, and nothing else. -/
theorem C95_stream (u : Casing) (fuel : Nat) (p : GenParams) (m : Module) (f : GoFile) (h : generateFile u fuel p m = some (.ok f))
    (hn : NamesOk u m.moduleBody.assignmentList) (hv : NoValName m.moduleBody.assignmentList) (e : GoExpr) (l : List (Bytes × GoVal))
    (hl : ∀ x ∈ l, Unmarshals f u e x.1 x.2 []) (vs : List GoVal) : ReadAll f u e (l.flatMap Prod.fst) vs ↔ vs = l.map Prod.snd := by
  induction l generalizing vs with
  | nil =>
    constructor
    · intro h1
      cases h1 with
      | nil => rfl
      | cons _ v rest vs h2 _ =>
        obtain ⟨used, h3, h4, -⟩ := C95_used u f e _ v rest h2
        exact absurd (List.append_eq_nil_iff.1 h4.symm).1 h3
    · rintro rfl; exact .nil
  | cons x l ih =>
    obtain ⟨b, v⟩ := x
    have h1 : Unmarshals f u e b v [] := hl _ (List.mem_cons_self ..)
    obtain ⟨used, h2, h3, h4⟩ := C95_used u f e b v [] h1
    rw [List.append_nil] at h3
    rw [← h3] at h2 h4
    have ih := fun vs => ih (fun x hx => hl x (List.mem_cons_of_mem _ hx)) vs
    rw [List.flatMap_cons, List.map_cons]
    dsimp only
    constructor
    · intro h5
      generalize hb : b ++ l.flatMap Prod.fst = bs at h5
      cases h5 with
      | nil => exact absurd (List.append_eq_nil_iff.1 hb).1 h2
      | cons _ v' rest vs h6 h7 =>
        subst hb
        obtain ⟨rfl, rfl⟩ := C82_unique u fuel p m f h hn hv _ _ _ _ _ _ (h4 (l.flatMap Prod.fst)) h6
        rw [(ih vs).1 h7]
    · rintro rfl
      exact .cons _ _ _ _ (h4 _) ((ih _).2 rfl)

/-- C95: DER encodings of values of a type, put one after the other, are read as values that stand for these, in order. -/
theorem C95_encodings (u : Casing) (fuel : Nat) (p : GenParams) (m : Module) (f : GoFile) (h : generateFile u fuel p m = some (.ok f))
    (hn : NamesOk u m.moduleBody.assignmentList)
    (hzero : ∀ a t, .type a t ∈ m.moduleBody.assignmentList → OptionalsZero m.moduleBody.assignmentList t)
    (hread : ∀ a t, .type a t ∈ m.moduleBody.assignmentList → Readable m.moduleBody.assignmentList m.tagDefault t)
    (op : Open) (hlim : op.Limited) (a : Str) (ha : Encodable true op m.moduleBody.assignmentList m.tagDefault p.integerRepr a) (l : List (AsnVal × Bytes))
    (hl : ∀ y ∈ l, Encodes true m.moduleBody.assignmentList m.tagDefault (.ref a) y.1 y.2 ∧ (op.iface = true → InterfacesRead m.moduleBody.assignmentList p.integerRepr (.ref a) y.1) ∧
      ReadFits m.moduleBody.assignmentList p.integerRepr (.ref a) y.1 ∧ OptionalsTold m.moduleBody.assignmentList p.integerRepr (.ref a) y.1 ∧ y.2.length < 2147483648) :
    ∃ vs, ReadAll f u (.ident (goifyName u a)) (l.flatMap Prod.snd) vs ∧
      List.Forall₂ (fun y v => ∃ x', Stands true u m.moduleBody.assignmentList m.tagDefault p.integerRepr f (.ref a) v x' ∧ Same m.moduleBody.assignmentList (.ref a) y.1 x') l vs := by
  induction l with
  | nil => exact ⟨[], .nil, .nil⟩
  | cons y l ih =>
    obtain ⟨vs, h1, h2⟩ := ih fun y hy => hl y (List.mem_cons_of_mem _ hy)
    obtain ⟨k1, k2, k3, k4, k5⟩ := hl y (List.mem_cons_self ..)
    obtain ⟨v, x', h3, h4⟩ := C82_read_partial u fuel p m f h hn hzero hread op hlim a ha y.1 k2 y.2 k1 k3 k4 k5 (l.flatMap Prod.snd)
    exact ⟨v :: vs, .cons _ _ _ _ h3 h1, .cons ⟨x', h4⟩ h2⟩

/-- The packet twice, one after the other: two values are read, and nothing else can be. -/
theorem C95_packets (vs : List GoVal) : ReadAll packetFile asciiCasing (.ident (c! "A"))
    [48, 19, 160, 3, 2, 1, 5, 22, 1, 120, 49, 6, 1, 1, 0, 1, 1, 255, 4, 1, 7, 48, 19, 160, 3, 2, 1, 5, 22, 1, 120, 49, 6, 1, 1, 0, 1, 1, 255, 4, 1, 7] vs ↔
      vs = [packetRead, packetRead] := by
  have hp : Unmarshals packetFile asciiCasing (.ident (c! "A")) [48, 19, 160, 3, 2, 1, 5, 22, 1, 120, 49, 6, 1, 1, 0, 1, 1, 255, 4, 1, 7] packetRead [] := packet_reads []
  exact C95_stream asciiCasing 20 int64Params _ packetFile packet_file packet_names packet_valName _
    [([48, 19, 160, 3, 2, 1, 5, 22, 1, 120, 49, 6, 1, 1, 0, 1, 1, 255, 4, 1, 7], packetRead), ([48, 19, 160, 3, 2, 1, 5, 22, 1, 120, 49, 6, 1, 1, 0, 1, 1, 255, 4, 1, 7], packetRead)]
    (by simp [hp]) vs

/-- The packet without its last octet: nothing is read. -/
theorem C95_short (v : GoVal) (rest : Bytes) : ¬ Unmarshals packetFile asciiCasing (.ident (c! "A"))
    [48, 19, 160, 3, 2, 1, 5, 22, 1, 120, 49, 6, 1, 1, 0, 1, 1, 255, 4, 1] v rest :=
  C95_truncated asciiCasing 20 int64Params _ packetFile packet_file packet_names packet_valName _ _ packetRead (packet_reads []) _ (by decide) (by decide) v rest

end Asn1go.Props

import Verif.Props.NamesDecide
import Verif.Props.EncodeDecide
import Verif.Props.DerCheck
import Verif.Props.Canonical
import Verif.Tests.Kerberos

/-! Types of RFC 4120: C103. -/

namespace Asn1go.Props

open Spec CG Enco Deco Tests

/-! ### A program that decides that there are no strings of few characters and no named bits -/

/-- In the type, and below the names that occur in it, which must be among these. -/
def certainCheck (names : List Str) : Nat → MTy → Bool
  | 0, _ => false
  | n + 1, t => match t with
    | .restrictedString k => k = Tok.UTF8String
    | .bitString nb => nb.isEmpty
    | .sequence a b | .set a b => (members (a ++ b)).all fun x => certainCheck names n x.type
    | .sequenceOf t | .setOf t | .tagged _ t _ _ | .constrained t _ => certainCheck names n t
    | .choice _ _ => false
    | .ref a => names.contains a
    | _ => true

theorem certain_of_check {l : List MAssignment} {names : List Str} (hn : ∀ a ∈ names, ∀ t, Assigned l a t → ∃ n, certainCheck names n t = true) {t t' : MTy} {v v' : GoVal}
    (h : Part l t v t' v') : ∀ {n}, certainCheck names n t = true → Certain t' := by
  induction h with
  | here t _ =>
    intro n h
    cases n with
    | zero => simp [certainCheck] at h
    | succ n => cases t <;> simp_all [certainCheck, Certain]
  | ref a t _ _ _ ha _ ih =>
    intro n h
    cases n with
    | zero => simp [certainCheck] at h
    | succ n =>
      obtain ⟨m, hm⟩ := hn a (by simpa [certainCheck] using h) t ha
      exact ih hm
  | constrained _ _ _ _ _ _ ih => intro n h; cases n with | zero => simp [certainCheck] at h | succ n => exact ih (by simpa only [certainCheck] using h)
  | tagged _ _ _ _ _ _ _ _ ih => intro n h; cases n with | zero => simp [certainCheck] at h | succ n => exact ih (by simpa only [certainCheck] using h)
  | choice => intro n h; cases n <;> simp [certainCheck] at h
  | sequence _ _ _ m _ _ _ _ _ hm _ _ ih =>
    intro n h
    cases n with
    | zero => simp [certainCheck] at h
    | succ n =>
      simp only [certainCheck, List.all_eq_true] at h
      exact ih (h m (List.of_mem_zip hm).1)
  | set _ _ _ m _ _ _ _ _ hm _ _ ih =>
    intro n h
    cases n with
    | zero => simp [certainCheck] at h
    | succ n =>
      simp only [certainCheck, List.all_eq_true] at h
      exact ih (h m (List.of_mem_zip hm).1)
  | sequenceOf _ _ _ _ _ _ _ _ _ ih => intro n h; cases n with | zero => simp [certainCheck] at h | succ n => exact ih (by simpa only [certainCheck] using h)
  | setOf _ _ _ _ _ _ _ _ _ ih => intro n h; cases n with | zero => simp [certainCheck] at h | succ n => exact ih (by simpa only [certainCheck] using h)

/-! ### RFC 4120 -/

/-- Types of RFC 4120 that have neither strings of other kinds nor tags of their own. -/
def kerberosTypes : List Str := [c! "Int32", c! "UInt32", c! "Microseconds", c! "HostAddress", c! "HostAddresses", c! "AuthorizationData", c! "PA-DATA", c! "KerberosFlags",
  c! "EncryptedData", c! "EncryptionKey", c! "Checksum", c! "TransitedEncoding", c! "TicketFlags", c! "KDCOptions", c! "LastReq",
  c! "APOptions", c! "KRB-SAFE-BODY", c! "METHOD-DATA", c! "TYPED-DATA", c! "PA-ENC-TIMESTAMP", c! "PA-ENC-TS-ENC", c! "ETYPE-INFO-ENTRY",
  c! "ETYPE-INFO", c! "AD-IF-RELEVANT", c! "AD-AND-OR", c! "AD-MANDATORY-FOR-KDC"]

/-- The assignments of RFC 4120. -/
abbrev kerberosList : List MAssignment := kerberos.moduleBody.assignmentList

theorem kerberos_names : NamesOk asciiCasing kerberosList := namesCheck_sound (fuel := 20) (by decide +kernel)

/-- The type of a name. -/
def typeOf (l : List MAssignment) (a : Str) : Option MTy :=
  match l.find? (·.name == a) with
  | some (.type _ t) => some t
  | _ => none

theorem assigned_of {l : List MAssignment} {a : Str} {t : MTy} (h : typeOf l a = some t) : Assigned l a t := by
  unfold typeOf at h
  split at h
  · rename_i n t' hf
    cases h
    have := List.find?_some hf
    simp only [Assignment.name, beq_iff_eq] at this
    subst this
    exact hf
  · cases h

theorem kerberos_time : TimeRef kerberosList (c! "KerberosTime") := by
  refine .ref _ (c! "GeneralizedTime") (.ref (c! "GeneralizedTime")) (assigned_of (by kernel_rfl)) rfl (.here fun t h => ?_)
  have hn : kerberosList.find? (fun x => x.name == c! "GeneralizedTime") = none := by decide +kernel
  rw [Assigned, hn] at h
  cases h

theorem kerberos_checked : ∀ a ∈ kerberosTypes, ∃ t n, Assigned kerberosList a t ∧ encCheck kerberosTypes [c! "KerberosTime"] kerberos.tagDefault n .assignment false t = true := by
  have h : (kerberosTypes.all fun a => ((typeOf kerberosList a).map (encCheck kerberosTypes [c! "KerberosTime"] kerberos.tagDefault 20 .assignment false)).getD false) = true := by
    decide +kernel
  intro a ha
  have h1 := List.all_eq_true.1 h a ha
  cases ht : typeOf kerberosList a with
  | none => simp [ht] at h1
  | some t => exact ⟨t, 20, assigned_of ht, by simpa [ht] using h1⟩

theorem kerberos_encodable {a : Str} (ha : a ∈ kerberosTypes) : Encodable true .none kerberosList kerberos.tagDefault (c! "int64") a :=
  check_encodable kerberos_checked (fun b hb => by cases List.mem_singleton.1 hb; exact kerberos_time) ha

theorem kerberos_proper {a : Str} (ha : a ∈ kerberosTypes) (v : GoVal) : Proper kerberosList (.ref a) v := by
  have h : ((c! "KerberosTime" :: c! "GeneralizedTime" :: kerberosTypes).all fun a =>
      ((typeOf kerberosList a).map (certainCheck (c! "KerberosTime" :: c! "GeneralizedTime" :: kerberosTypes) 20)).getD true) = true := by
    decide +kernel
  intro t' v' hp
  have hc : Certain t' := by
    refine certain_of_check (names := c! "KerberosTime" :: c! "GeneralizedTime" :: kerberosTypes) (fun b hb t ht => ⟨20, ?_⟩) hp (n := 1)
      (by simpa [certainCheck] using .inr (.inr ha))
    have h1 := List.all_eq_true.1 h b hb
    have h2 : typeOf kerberosList b = some t := by rw [typeOf, ht]
    simpa [h2] using h1
  exact certain_here hc

/-! ### C103: types of RFC 4120 -/

/-- For these types and the file that is generated for RFC 4120: whatever octets are read, what is read stands for a value of the type; what is written
for it is the encoding of that by DER, and it is what was read exactly if that was the encoding by DER. -/
theorem C103_kerberos (a : Str) (ha : a ∈ kerberosTypes) (b : Bytes) (v : GoVal) (rest : Bytes)
    (hr : Unmarshals kerberosFile asciiCasing (.ident (goifyName asciiCasing a)) (b ++ rest) v rest) (hl : (b ++ rest).length < 1000000000000000000) :
    ∃ x bs, Stands true asciiCasing kerberosList kerberos.tagDefault (c! "int64") kerberosFile (.ref a) v x ∧ marshal asciiCasing v = some bs ∧
      (bs.length ≤ 9223372036854775807 → Encodes true kerberosList kerberos.tagDefault (.ref a) x bs ∧
        (bs = b ↔ Encodes true kerberosList kerberos.tagDefault (.ref a) x b)) := by
  have hp := kerberos_proper ha v
  have he := kerberos_encodable ha
  obtain ⟨x, hx⟩ := (C101_exact asciiCasing 100 (newCodeGenerator { package := c! "examples" }) kerberos kerberosFile generate_kerberos kerberos_names a he _ v rest hr hl).2 hp
  have hty := C82_typed asciiCasing kerberosFile (generated_predeclared generate_kerberos kerberos_names) _ _ _ _ hr hl
  obtain ⟨bs, h1, h2⟩ := C76_der_partial asciiCasing 100 (newCodeGenerator { package := c! "examples" }) kerberos kerberosFile generate_kerberos kerberos_names .none a he v x hty hx
  refine ⟨x, bs, hx, h1, fun h3 => ⟨h2 h3, ?_, fun h4 => ?_⟩⟩
  · rintro rfl
    exact h2 h3
  · exact C84_der_unique _ _ _ _ _ _ _ (encodable_named generate_kerberos kerberos_names (op := .none) (p := newCodeGenerator { package := c! "examples" }) rfl he x) (.refl _ _)
      (h2 h3) h4

/-- Every Go value of one of these types that stands for a value is written as its encoding by DER. -/
theorem C103_writes (a : Str) (ha : a ∈ kerberosTypes) (v : GoVal) (x : AsnVal) (hty : Typed kerberosFile (.ident (goifyName asciiCasing a)) v)
    (hx : Stands true asciiCasing kerberosList kerberos.tagDefault (c! "int64") kerberosFile (.ref a) v x) :
    ∃ bs, marshal asciiCasing v = some bs ∧ (bs.length ≤ 9223372036854775807 → Encodes true kerberosList kerberos.tagDefault (.ref a) x bs) :=
  C76_der_partial asciiCasing 100 (newCodeGenerator { package := c! "examples" }) kerberos kerberosFile generate_kerberos kerberos_names .none a (kerberos_encodable ha) v x hty hx

/-! ### A case: keys -/

/-- The octets of an `EncryptionKey`, and then others inside it. -/
def keyOctets (n : UInt8) (more : Bytes) : Bytes := [48, n, 160, 3, 2, 1, 18, 161, 4, 4, 2, 65, 66] ++ more

def keyValue : GoVal := .struct [.mk (c! "Keytype") (some (c! "`asn1:\"explicit,tag:0\"`")) (.int 18),
  .mk (c! "Keyvalue") (some (c! "`asn1:\"explicit,tag:1\"`")) (.bytes (some [65, 66]))]

theorem key_fields (more : Bytes) (h : more = [] ∨ more = [5, 0]) : ReadsFields kerberosFile asciiCasing [.mk (c! "Keytype") (.ident (c! "Int32")) (some (c! "`asn1:\"explicit,tag:0\"`")),
    .mk (c! "Keyvalue") (.array (.ident (c! "byte"))) (some (c! "`asn1:\"explicit,tag:1\"`"))] ([160, 3, 2, 1, 18, 161, 4, 4, 2, 65, 66] ++ more)
    [.mk (c! "Keytype") (some (c! "`asn1:\"explicit,tag:0\"`")) (.int 18), .mk (c! "Keyvalue") (some (c! "`asn1:\"explicit,tag:1\"`")) (.bytes (some [65, 66]))] more := by
  have hi : Declares kerberosFile ⟨c! "Int32", true, .ident (c! "int64")⟩ :=
    ⟨_, List.mem_append_left _ (.tail _ (.tail _ (.head _))), List.mem_singleton.2 rfl⟩
  refine .cons _ _ _ _ _ ([161, 4, 4, 2, 65, 66] ++ more) _ _ _ (by decide)
    (.element _ _ _ _ _ 2 false 2 [18] _ _ (.alias _ _ _ _ hi (.int64 (by decide +kernel))) rfl ?_ (.simple _ _ _ _ _ (.int _ _ _ (by decide +kernel)))) ?_
  · rcases h with rfl | rfl <;> decide +kernel
  · refine .cons _ _ _ _ _ more _ _ _ (by decide) (.element _ _ _ _ _ 4 false 4 [65, 66] _ _ (.bytes (by decide +kernel)) rfl ?_ (.simple _ _ _ _ _ (.bytes _ _))) (.nil _)
    rcases h with rfl | rfl <;> decide +kernel

theorem key_declared : Declares kerberosFile ⟨c! "EncryptionKey", false, .struct [.mk (c! "Keytype") (.ident (c! "Int32")) (some (c! "`asn1:\"explicit,tag:0\"`")),
    .mk (c! "Keyvalue") (.array (.ident (c! "byte"))) (some (c! "`asn1:\"explicit,tag:1\"`"))]⟩ :=
  ⟨_, List.mem_append_right _ (List.mem_append_left _ (.tail _ (.tail _ (.tail _ (.head _))))), List.mem_singleton.2 rfl⟩

/-- Both octet strings are read as the same key; the first is DER and the other is not. -/
theorem C103_key : Unmarshals kerberosFile asciiCasing (.ident (c! "EncryptionKey")) (keyOctets 11 []) keyValue [] ∧
    Unmarshals kerberosFile asciiCasing (.ident (c! "EncryptionKey")) (keyOctets 13 [5, 0]) keyValue [] ∧
    ∃ x, Stands true asciiCasing kerberosList kerberos.tagDefault (c! "int64") kerberosFile (.ref (c! "EncryptionKey")) keyValue x ∧
      Encodes true kerberosList kerberos.tagDefault (.ref (c! "EncryptionKey")) x (keyOctets 11 []) ∧
      ¬ Encodes true kerberosList kerberos.tagDefault (.ref (c! "EncryptionKey")) x (keyOctets 13 [5, 0]) := by
  have h1 : Unmarshals kerberosFile asciiCasing (.ident (c! "EncryptionKey")) (keyOctets 11 []) keyValue [] :=
    .element _ _ _ _ _ 16 true 16 [160, 3, 2, 1, 18, 161, 4, 4, 2, 65, 66] [] _ (.defined _ _ _ _ key_declared (.struct _) trivial) rfl (by decide +kernel)
      (.struct _ _ _ _ [] _ (key_fields [] (.inl rfl)))
  have h2 : Unmarshals kerberosFile asciiCasing (.ident (c! "EncryptionKey")) (keyOctets 13 [5, 0]) keyValue [] :=
    .element _ _ _ _ _ 16 true 16 [160, 3, 2, 1, 18, 161, 4, 4, 2, 65, 66, 5, 0] [] _ (.defined _ _ _ _ key_declared (.struct _) trivial) rfl (by decide +kernel)
      (.struct _ _ _ _ [5, 0] _ (key_fields [5, 0] (.inr rfl)))
  have hm : marshal asciiCasing keyValue = some (keyOctets 11 []) := by decide +kernel
  refine ⟨h1, h2, ?_⟩
  obtain ⟨x, bs, h3, h4, h5⟩ := C103_kerberos (c! "EncryptionKey") (by decide) (keyOctets 11 []) keyValue [] h1 (by decide)
  obtain ⟨x', bs', h6, h7, h8⟩ := C103_kerberos (c! "EncryptionKey") (by decide) (keyOctets 13 [5, 0]) keyValue [] h2 (by decide)
  cases h4.symm.trans hm
  cases h7.symm.trans hm
  obtain rfl := means_unique h3 h6 (encodable_plain generate_kerberos kerberos_names (p := newCodeGenerator { package := c! "examples" }) (kerberos_encodable (by decide)) x)
  exact ⟨x, h3, (h5 (by decide)).1, fun h => absurd ((h8 (by decide)).2.2 h) (by decide)⟩

end Asn1go.Props

import Verif.Spec.Commands
import Verif.Proofs.Tools.Utf8

/-! The command line and the files of the command asn1go. -/

namespace Asn1go

open Spec

theorem splitValue_some : ∀ (s n v : Str), splitValue s = (n, some v) → s = n ++ '=' :: v
  | [], n, v, h => by simp [splitValue] at h
  | [c], n, v, h => by simp [splitValue] at h
  | c :: d :: l, n, v, h => by
    by_cases hd : d = '='
    · subst hd
      rw [splitValue] at h
      simp only [Prod.mk.injEq, Option.some.injEq] at h
      obtain ⟨rfl, rfl⟩ := h
      rfl
    · rw [splitValue.eq_4 _ _ _ (by intro h; exact hd h)] at h
      simp only [Prod.mk.injEq] at h
      obtain ⟨h1, h2⟩ := h
      rw [splitValue_some (d :: l) (splitValue (d :: l)).1 v (Prod.ext rfl h2)]
      rw [← h1]; rfl

theorem splitValue_none : ∀ (s n : Str), splitValue s = (n, none) → s = n
  | [], n, h => by simpa [splitValue] using h
  | [c], n, h => by simpa [splitValue] using h
  | c :: d :: l, n, h => by
    by_cases hd : d = '='
    · subst hd; rw [splitValue] at h; simp at h
    · rw [splitValue.eq_4 _ _ _ (by intro h; exact hd h)] at h
      simp only [Prod.mk.injEq] at h
      obtain ⟨h1, h2⟩ := h
      rw [splitValue_none (d :: l) (splitValue (d :: l)).1 (Prod.ext rfl h2), ← h1]

theorem splitValue_name : ∀ (n : Str), n ≠ [] → '=' ∉ n → splitValue n = (n, none) ∧ ∀ v, splitValue (n ++ '=' :: v) = (n, some v)
  | [], h, _ => absurd rfl h
  | [c], _, _ => ⟨rfl, fun v => by simp [splitValue]⟩
  | c :: d :: l, _, h => by
    have hd : ¬ d = '=' := fun e => h (by simp [e])
    obtain ⟨h1, h2⟩ := splitValue_name (d :: l) (by simp) (fun e => h (List.mem_cons_of_mem _ e))
    refine ⟨?_, fun v => ?_⟩
    · rw [splitValue.eq_4 _ _ _ (by intro h; exact hd h), h1]
    · rw [List.cons_append, List.cons_append, splitValue.eq_4 _ _ _ (by intro h; exact hd h)]
      have := h2 v
      rw [List.cons_append] at this
      rw [this]

/-- An argument that names an option. -/
theorem head_one (n : Str) (rest : List Str) (c : Char) (l : Str) (h : n = c :: l) (h1 : c ≠ '-') (h2 : c ≠ '=') :
    flagHead (('-' :: n) :: rest) = .flag n rest ∧ flagHead (('-' :: '-' :: n) :: rest) = .flag n rest := by
  subst h
  constructor
  · rw [flagHead]
    · rw [if_neg h2]
    · intro e; simp [h1] at e
    · intro c' l' e; simp [h1] at e
  · rw [flagHead, if_neg (by simp [h1, h2])]

theorem known_split {n : Str} (h : n = c! "package" ∨ n = c! "default-integer-repr" ∨ n = c! "h" ∨ n = c! "help") :
    splitValue n = (n, none) ∧ ∀ v, splitValue (n ++ '=' :: v) = (n, some v) := by
  refine splitValue_name n ?_ ?_ <;> rcases h with rfl | rfl | rfl | rfl <;> decide

theorem known_head {n : Str} (h : n = c! "package" ∨ n = c! "default-integer-repr" ∨ n = c! "h" ∨ n = c! "help") :
    ∃ c l, n = c :: l ∧ c ≠ '-' ∧ c ≠ '=' := by
  rcases h with rfl | rfl | rfl | rfl <;> exact ⟨_, _, rfl, by decide, by decide⟩

/-- A flag with its value set. -/
def flagsOf (o : Options) : Flags := { packageName := o.package, defaultIntRepr := o.repr }

/-- The result that a meaning stands for. -/
def resultOfMeaning : Meaning → Except Nat (Flags × List Str)
  | .run o ops => .ok (flagsOf o, ops)
  | .help => .error 0
  | .bad => .error 2

theorem spelled_step (n v : Str) (w rest : List Str) (o o' : Options) (k : Nat)
    (hn : n = c! "package" ∨ n = c! "default-integer-repr") (hs : ∀ v, ∃ o', setFlag (flagsOf o) n v = some (flagsOf o'))
    (ho : setFlag (flagsOf o) n v = some (flagsOf o')) (h : Spelled n v w) :
    flagLoop (k + 1) (flagsOf o) (w ++ rest) = flagLoop k (flagsOf o') rest := by
  have hk : n = c! "package" ∨ n = c! "default-integer-repr" ∨ n = c! "h" ∨ n = c! "help" := by tauto
  obtain ⟨s1, s2⟩ := known_split hk
  obtain ⟨c, l, e, e1, e2⟩ := known_head hk
  obtain ⟨o0, h0⟩ := hs []
  cases h with
  | eq1 =>
    have hh := (head_one (n ++ '=' :: v) rest c (l ++ '=' :: v) (by rw [e]; rfl) e1 e2).1
    rw [List.singleton_append, flagLoop, hh]
    simp only [s2 v, h0, ho, Option.getD_some]
  | eq2 =>
    have hh := (head_one (n ++ '=' :: v) rest c (l ++ '=' :: v) (by rw [e]; rfl) e1 e2).2
    rw [List.singleton_append, flagLoop, hh]
    simp only [s2 v, h0, ho, Option.getD_some]
  | next1 =>
    have hh := (head_one n (v :: rest) c l e e1 e2).1
    rw [List.cons_append, List.singleton_append, flagLoop, hh]
    simp only [s1, h0, ho, Option.getD_some]
  | next2 =>
    have hh := (head_one n (v :: rest) c l e e1 e2).2
    rw [List.cons_append, List.singleton_append, flagLoop, hh]
    simp only [s1, h0, ho, Option.getD_some]

theorem setFlag_package (o : Options) (v : Str) : setFlag (flagsOf o) (c! "package") v = some (flagsOf { o with package := v }) := by
  rw [setFlag, if_pos rfl]; rfl

theorem setFlag_repr (o : Options) (v : Str) : setFlag (flagsOf o) (c! "default-integer-repr") v = some (flagsOf { o with repr := v }) := by
  rw [setFlag, if_neg (by decide), if_pos rfl]; rfl

theorem setFlag_isSome {f : Flags} {n v : Str} (h : setFlag f n v ≠ none) : n = c! "package" ∨ n = c! "default-integer-repr" := by
  unfold setFlag at h
  split at h
  · left; assumption
  · split at h
    · right; assumption
    · exact absurd rfl h

theorem flagHead_cases (a : Str) (rest : List Str) :
    (¬ OptionLike a ∧ flagHead (a :: rest) = .stop (a :: rest)) ∨ (a = c! "--" ∧ flagHead (a :: rest) = .stop rest) ∨
    (OptionLike a ∧ a ≠ c! "--" ∧ flagHead (a :: rest) = .bad ∧ ∀ c l, (a = '-' :: c :: l ∨ a = '-' :: '-' :: c :: l) → c = '-' ∨ c = '=') ∨
    (OptionLike a ∧ a ≠ c! "--" ∧ ∃ s, flagHead (a :: rest) = .flag s rest ∧ (a = '-' :: s ∨ a = '-' :: '-' :: s)) := by
  match a with
  | [] => left; exact ⟨(by rintro ⟨c, l, h⟩; cases h), rfl⟩
  | [x] =>
    left
    refine ⟨(by rintro ⟨c, l, h⟩; cases h), ?_⟩
    rw [flagHead] <;> simp
  | x :: y :: l =>
    by_cases hx : x = '-'
    · subst hx
      by_cases hy : y = '-'
      · subst hy
        match l with
        | [] => right; left; exact ⟨rfl, rfl⟩
        | z :: l =>
          by_cases hz : z = '-' ∨ z = '='
          · right; right; left
            refine ⟨⟨_, _, rfl⟩, by simp, ?_, ?_⟩
            · rw [flagHead, if_pos hz]
            · rintro c l' (h | h)
              · simp at h; left; exact h.1.symm
              · simp at h; rw [← h.1]; exact hz
          · right; right; right
            refine ⟨⟨_, _, rfl⟩, by simp, z :: l, ?_, .inr rfl⟩
            rw [flagHead, if_neg hz]
      · have hne : ('-' :: y :: l) ≠ c! "--" := by intro h; simp at h; exact hy h.1
        by_cases hz : y = '='
        · right; right; left
          refine ⟨⟨_, _, rfl⟩, hne, ?_, ?_⟩
          · rw [flagHead, if_pos hz] <;> simp [hy]
          · rintro c l' (h | h)
            · simp at h; right; rw [← h.1]; exact hz
            · simp at h; exact absurd h.1 hy
        · right; right; right
          refine ⟨⟨_, _, rfl⟩, hne, y :: l, ?_, .inl rfl⟩
          rw [flagHead, if_neg hz] <;> simp [hy]
    · left
      refine ⟨by rintro ⟨c, l, h⟩; simp at h; exact hx h.1, ?_⟩
      rw [flagHead] <;> simp [hx]

theorem flagLoop_sound {o : Options} {args : List Str} {m : Meaning} (h : CommandLine o args m) :
    ∀ n, args.length < n → flagLoop n (flagsOf o) args = resultOfMeaning m := by
  induction h with
  | none o => intro n h; match n with | n + 1 => rfl
  | operand o a rest ha =>
    intro n h
    match n with
    | n + 1 =>
      rcases flagHead_cases a rest with ⟨_, h⟩ | ⟨h, _⟩ | ⟨h, _⟩ | ⟨h, _⟩
      · rw [flagLoop, h]; rfl
      · exact (ha ⟨_, _, h⟩).elim
      · exact (ha h).elim
      · exact (ha h).elim
  | dashes o rest => intro n h; match n with | n + 1 => rfl
  | package o v w rest m hs _ ih =>
    intro n h
    match n with
    | n + 1 =>
      rw [spelled_step _ v w rest o { o with package := v } n (.inl rfl) (fun v => ⟨_, setFlag_package o v⟩) (setFlag_package o v) hs]
      refine ih n ?_
      have : 0 < w.length := by cases hs <;> simp
      simp only [List.length_append] at h
      omega
  | repr o v w rest m hs _ ih =>
    intro n h
    match n with
    | n + 1 =>
      rw [spelled_step _ v w rest o { o with repr := v } n (.inr rfl) (fun v => ⟨_, setFlag_repr o v⟩) (setFlag_repr o v) hs]
      refine ih n ?_
      have : 0 < w.length := by cases hs <;> simp
      simp only [List.length_append] at h
      omega
  | help o a rest ha =>
    intro k h
    match k with
    | k + 1 =>
      obtain ⟨n, hn, ha⟩ := ha
      have hk : n = c! "package" ∨ n = c! "default-integer-repr" ∨ n = c! "h" ∨ n = c! "help" := by tauto
      obtain ⟨s1, s2⟩ := known_split hk
      obtain ⟨c, l, e, e1, e2⟩ := known_head hk
      have hset : setFlag (flagsOf o) n [] = none := by
        rcases hn with rfl | rfl <;> rw [setFlag, if_neg (by decide), if_neg (by decide)]
      have fin : ∀ s, (splitValue s).1 = n → flagHead (a :: rest) = .flag s rest → flagLoop (k + 1) (flagsOf o) (a :: rest) = .error 0 := by
        intro s hs hh
        rw [flagLoop, hh]
        simp only [hs, hset]
        rw [if_pos (by tauto)]
      rcases ha with rfl | rfl | ⟨v, rfl | rfl⟩
      · exact fin n (by rw [s1]) (head_one n rest c l e e1 e2).1
      · exact fin n (by rw [s1]) (head_one n rest c l e e1 e2).2
      · exact fin _ (by rw [s2 v]) (head_one _ rest c (l ++ '=' :: v) (by rw [e]; rfl) e1 e2).1
      · exact fin _ (by rw [s2 v]) (head_one _ rest c (l ++ '=' :: v) (by rw [e]; rfl) e1 e2).2
  | bad o a rest h1 h2 h3 h4 =>
    intro k h
    match k with
    | k + 1 =>
      rcases flagHead_cases a rest with ⟨h, _⟩ | ⟨h, _⟩ | ⟨_, _, h, _⟩ | ⟨_, _, s, h, hs⟩
      · exact absurd h1 h
      · exact absurd h h2
      · rw [flagLoop, h]; rfl
      · rw [flagLoop, h]
        dsimp only
        generalize hsv : splitValue s = p
        obtain ⟨n, ov⟩ := p
        cases hset : setFlag (flagsOf o) n [] with
        | none =>
          simp only []
          rw [if_neg]
          · rfl
          · intro hn
            refine h3 ⟨n, hn.symm, ?_⟩
            cases ov with
            | none => have := splitValue_none _ _ hsv; subst this; tauto
            | some v => have := splitValue_some _ _ _ hsv; subst this; right; right; exact ⟨v, hs⟩
        | some f =>
          have hn := setFlag_isSome (f := flagsOf o) (n := n) (v := []) (by rw [hset]; simp)
          cases ov with
          | none =>
            have := splitValue_none _ _ hsv
            subst this
            cases rest with
            | nil => rfl
            | cons v rest =>
              refine (h4 ⟨s, v, [a, v], rest, hn, ?_, rfl⟩).elim
              rcases hs with rfl | rfl
              · exact .next1 _ _
              · exact .next2 _ _
          | some v =>
            have := splitValue_some _ _ _ hsv
            subst this
            refine (h4 ⟨n, v, [a], rest, hn, ?_, rfl⟩).elim
            rcases hs with rfl | rfl
            · exact .eq1 _ _
            · exact .eq2 _ _

theorem commandLine_total (args : List Str) : ∀ o, ∃ m, CommandLine o args m := by
  generalize hn : args.length = n
  induction n using Nat.strong_induction_on generalizing args with
  | _ n ih =>
    intro o
    match args with
    | [] => exact ⟨_, .none o⟩
    | a :: rest =>
      by_cases h1 : OptionLike a
      · by_cases h2 : a = c! "--"
        · subst h2; exact ⟨_, .dashes o rest⟩
        · by_cases h3 : AsksHelp a
          · exact ⟨_, .help o a rest h3⟩
          · by_cases h4 : StartsOption (a :: rest)
            · obtain ⟨nm, v, w, r, hnm, hs, e⟩ := h4
              have hw : 0 < w.length := by cases hs <;> simp
              have hl : r.length < n := by
                have := congrArg List.length e
                simp only [List.length_append] at this
                omega
              rw [e]
              rcases hnm with rfl | rfl
              · obtain ⟨m, hm⟩ := ih r.length hl r rfl { o with package := v }
                exact ⟨m, .package o v w r m hs hm⟩
              · obtain ⟨m, hm⟩ := ih r.length hl r rfl { o with repr := v }
                exact ⟨m, .repr o v w r m hs hm⟩
            · exact ⟨_, .bad o a rest h1 h2 h3 h4⟩
      · exact ⟨_, .operand o a rest h1⟩

theorem resultOfMeaning_inj {m m' : Meaning} (h : resultOfMeaning m = resultOfMeaning m') : m = m' := by
  cases m <;> cases m' <;> simp [resultOfMeaning, flagsOf] at h ⊢
  rename_i o _ o' _
  obtain ⟨⟨h1, h2⟩, h3⟩ := h
  refine ⟨?_, h3⟩
  cases o; cases o'
  simp at h1 h2
  simp [h1, h2]

theorem flagLoop_iff (args : List Str) (m : Meaning) :
    CommandLine {} args m ↔ flagLoop (args.length + 1) {} args = resultOfMeaning m := by
  constructor
  · intro h; exact flagLoop_sound h _ (Nat.lt_succ_self _)
  · intro h
    obtain ⟨m', h'⟩ := commandLine_total args {}
    have := flagLoop_sound h' _ (Nat.lt_succ_self _)
    rw [show flagsOf {} = {} from rfl, h] at this
    rw [resultOfMeaning_inj this]
    exact h'

/-- The flags of a job. -/
def jobFlags (j : Job) : Flags :=
  { inputName := j.input, outputName := j.output, packageName := j.options.package, defaultIntRepr := j.options.repr }

theorem parseFlags_cases (args : List Str) :
    (∃ j, Asks args j ∧ parseFlags args = .ok (jobFlags j)) ∨
    (∃ o ops, CommandLine {} args (.run o ops) ∧ 2 < ops.length ∧ parseFlags args = .error 1) ∨
    (CommandLine {} args .help ∧ parseFlags args = .error 0) ∨ (CommandLine {} args .bad ∧ parseFlags args = .error 2) := by
  obtain ⟨m, hm⟩ := commandLine_total args {}
  have h := (flagLoop_iff args m).1 hm
  cases m with
  | help => right; right; left; exact ⟨hm, by rw [parseFlags, h]; rfl⟩
  | bad => right; right; right; exact ⟨hm, by rw [parseFlags, h]; rfl⟩
  | run o ops =>
    match ops, h, hm with
    | [], h, hm => left; exact ⟨⟨o, [], []⟩, ⟨[], hm, by simp, rfl, rfl⟩, by rw [parseFlags, h]; rfl⟩
    | [i], h, hm => left; exact ⟨⟨o, i, []⟩, ⟨[i], hm, by simp, rfl, rfl⟩, by rw [parseFlags, h]; rfl⟩
    | [i, u], h, hm => left; exact ⟨⟨o, i, u⟩, ⟨[i, u], hm, by simp, rfl, rfl⟩, by rw [parseFlags, h]; rfl⟩
    | a :: b :: c :: l, h, hm => right; left; exact ⟨o, _, hm, by simp, by rw [parseFlags, h]; rfl⟩

theorem commandLine_unique {args : List Str} {m m' : Meaning} (h : CommandLine {} args m) (h' : CommandLine {} args m') : m = m' :=
  resultOfMeaning_inj (((flagLoop_iff _ _).1 h).symm.trans ((flagLoop_iff _ _).1 h'))

theorem asks_unique {args : List Str} {j j' : Job} (h : Asks args j) (h' : Asks args j') : j = j' := by
  obtain ⟨ops, h1, _, h2, h3⟩ := h
  obtain ⟨ops', h1', _, h2', h3'⟩ := h'
  have := commandLine_unique h1 h1'
  simp only [Meaning.run.injEq] at this
  obtain ⟨e1, rfl⟩ := this
  cases j; cases j'
  simp only [] at *
  subst h2 h3 h2' h3' e1
  rfl

/-- The files when both channels are open. -/
theorem openChannels_cases (f : Files) (j : Job) :
    (¬ (CanRead f j.input ∧ CanWrite f j.output) ∧ (openChannels f j.input j.output).2 = none ∧
      ∀ i, i ≠ f.fresh → (openChannels f j.input j.output).1.content i = f.content i) ∨
    (CanRead f j.input ∧ CanWrite f j.output ∧ ∃ f1 ic oc, openChannels f j.input j.output = (f1, some (ic, oc)) ∧
      (∀ stdin : List UInt8 × ReadEnd, ∀ bs fin, Source f stdin j bs fin ↔
        readChannel f1 stdin ic = (bs, fin)) ∧
      ((j.output = [] ∧ oc = .std ∧ f1 = f) ∨
       (j.output ≠ [] ∧ oc = .file (target f j.output) ∧ f1.inode j.output = some (target f j.output) ∧
        (∀ p, p ≠ j.output → f1.inode p = f.inode p) ∧ f1.content (target f j.output) = [] ∧
        ∀ i, i ≠ target f j.output → f1.content i = f.content i))) := by
  obtain ⟨opt, inp, out⟩ := j
  dsimp only
  by_cases hi : CanRead f inp
  · have hin : ∃ ic, (if inp = [] then some Channel.std else (osOpen f inp).map .file) = some ic ∧
        ((inp = [] ∧ ic = .std) ∨ (inp ≠ [] ∧ ∃ i, f.inode inp = some i ∧ ic = .file i)) := by
      rcases hi with h | ⟨i, h1, h2⟩
      · exact ⟨.std, by rw [if_pos h], .inl ⟨h, rfl⟩⟩
      · by_cases h : inp = []
        · exact ⟨.std, by rw [if_pos h], .inl ⟨h, rfl⟩⟩
        · exact ⟨.file i, by rw [if_neg h, osOpen, h1]; simp [h2], .inr ⟨h, i, h1, rfl⟩⟩
    obtain ⟨ic, hic, hcase⟩ := hin
    by_cases ho : CanWrite f out
    · right
      refine ⟨hi, ho, ?_⟩
      by_cases hout : out = []
      · refine ⟨f, ic, .std, by rw [openChannels]; simp only [hic]; rw [if_pos hout], ?_, .inl ⟨hout, rfl, rfl⟩⟩
        intro stdin bs fin
        rcases hcase with ⟨h, rfl⟩ | ⟨h, i, h1, rfl⟩
        · simp [Source, h, readChannel]
        · simp [Source, h, hout, h1, readChannel, Prod.ext_iff, eq_comm, and_comm]
      · rcases ho with h | ⟨h, ht⟩
        · exact absurd h hout
        · obtain ⟨f1, hw, hinode, hpaths, hcont, htr, hre⟩ : ∃ f1, osOpenWrite f out = some (f1, target f out) ∧
              f1.inode out = some (target f out) ∧ (∀ p, p ≠ out → f1.inode p = f.inode p) ∧
              (∀ i, i ≠ target f out → f1.content i = f.content i) ∧ f1.truncatable = f.truncatable ∧ f1.readEnd = f.readEnd := by
            rcases h with ⟨i, h1, h2⟩ | ⟨h1, h2⟩
            · refine ⟨f, ?_, ?_, fun _ _ => rfl, fun _ _ => rfl, rfl, rfl⟩
              · rw [osOpenWrite, h1]; simp [h2, target, h1]
              · simp [target, h1]
            · refine ⟨{ f with inode := fun p => if p = out then some f.fresh else f.inode p,
                               content := fun j => if j = f.fresh then [] else f.content j }, ?_, ?_, ?_, ?_, rfl, rfl⟩
              · rw [osOpenWrite, h1]; simp only [h2, if_true, target, h1, Option.getD_none]
              · simp [target, h1]
              · intro p hp; simp [hp]
              · intro i hi; simp only [target, h1, Option.getD_none] at hi; simp [hi]
          refine ⟨f1.write (target f out) [], ic, .file (target f out), ?_, ?_, .inr ⟨hout, rfl, hinode, hpaths, ?_, ?_⟩⟩
          · rw [openChannels]
            simp only [hic]
            rw [if_neg hout, hw]
            simp only [osTruncate, htr, ht, if_true]
          · intro stdin bs fin
            rcases hcase with ⟨h, rfl⟩ | ⟨h, i, h1, rfl⟩
            · simp [Source, h, readChannel]
            · simp only [Source, h, readChannel, false_and, false_or, h1, Option.some.injEq, ne_eq, not_false_eq_true, true_and, hout,
                exists_eq_left', Files.write, hre, Prod.mk.injEq]
              by_cases hh : i = target f out
              · subst hh; simp [eq_comm, and_comm]
              · have hh' : ¬ target f out = i := fun e => hh e.symm
                simp [hh, hh', hcont i hh, eq_comm, and_comm]
          · simp [Files.write]
          · intro i hi; simp [Files.write, hi, hcont i hi]
    · left
      have hout : out ≠ [] := fun e => ho (.inl e)
      refine ⟨fun h => ho h.2, ?_⟩
      rw [openChannels]
      simp only [hic]
      rw [if_neg hout]
      cases hw : osOpenWrite f out with
      | none => exact ⟨rfl, fun _ _ => rfl⟩
      | some p =>
        obtain ⟨f1, o⟩ := p
        dsimp only
        rw [osOpenWrite] at hw
        cases hno : f.inode out with
        | some i =>
          rw [hno] at hw
          dsimp only at hw
          split at hw
          · next hwr =>
            simp only [Option.some.injEq, Prod.mk.injEq] at hw
            obtain ⟨rfl, rfl⟩ := hw
            by_cases ht : f.truncatable i = true
            · exact (ho (.inr ⟨.inl ⟨i, hno, hwr⟩, by simpa [target, hno] using ht⟩)).elim
            · simp [osTruncate, ht]
          · cases hw
        | none =>
          rw [hno] at hw
          dsimp only at hw
          split at hw
          · next hwr =>
            simp only [Option.some.injEq, Prod.mk.injEq] at hw
            obtain ⟨rfl, rfl⟩ := hw
            by_cases ht : f.truncatable f.fresh = true
            · exact (ho (.inr ⟨.inr ⟨hno, hwr⟩, by simpa [target, hno] using ht⟩)).elim
            · simp only [osTruncate, ht]
              refine ⟨rfl, ?_⟩
              intro i hi
              simp [hi]
          · cases hw
  · left
    refine ⟨fun h => hi h.1, ?_⟩
    have hne : inp ≠ [] := fun e => hi (.inl e)
    have : osOpen f inp = none := by
      rw [osOpen]
      cases h : f.inode inp with
      | none => rfl
      | some i =>
        by_cases hr : f.readable i = true
        · exact (hi (.inr ⟨i, h, hr⟩)).elim
        · simp [hr]
    rw [openChannels]
    simp [hne, this]

end Asn1go

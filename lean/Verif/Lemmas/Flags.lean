import Verif.Spec.Flags
import Verif.Lemmas.IPText
/-!
# Parsing of options
-/

namespace TcpInfo
open Flags Spec

theorem splitEq_none : ∀ cs : Text, '=' ∉ cs → splitEq cs = (cs, none)
  | [], _ => rfl
  | c :: cs, h => by
    have h1 : c ≠ '=' := fun e => h (by simp [e])
    have h2 : '=' ∉ cs := fun e => h (by simp [e])
    simp only [splitEq, if_neg h1, splitEq_none cs h2]

theorem splitEq_some (v : Text) : ∀ cs : Text, '=' ∉ cs → splitEq (cs ++ '=' :: v) = (cs, some v)
  | [], _ => by simp [splitEq]
  | c :: cs, h => by
    have h1 : c ≠ '=' := fun e => h (by simp [e])
    have h2 : '=' ∉ cs := fun e => h (by simp [e])
    simp only [List.cons_append, splitEq, if_neg h1, splitEq_some v cs h2]

theorem splitEq_inv : ∀ cs : Text, '=' ∉ (splitEq cs).1
    ∧ ((splitEq cs).2 = none → cs = (splitEq cs).1) ∧ (∀ v, (splitEq cs).2 = some v → cs = (splitEq cs).1 ++ '=' :: v)
  | [] => by simp [splitEq]
  | c :: cs => by
    obtain ⟨i1, i2, i3⟩ := splitEq_inv cs
    by_cases hc : c = '='
    · subst hc; simp [splitEq]
    · simp only [splitEq, if_neg hc]
      refine ⟨?_, ?_, ?_⟩
      · simp only [List.mem_cons, not_or]; exact ⟨fun e => hc e.symm, i1⟩
      · intro h; rw [← i2 h]
      · intro v h; rw [List.cons_append, ← i3 v h]

/-- Names as they should be. -/
def GoodName (n : Text) : Prop := n ≠ [] ∧ n.head? ≠ some '-' ∧ '=' ∉ n

theorem nameArg_good {n : Text} (h : GoodName n) : nameArg n = .opt n none ∧ ∀ v, nameArg (n ++ '=' :: v) = .opt n (some v) := by
  obtain ⟨h0, h1, h2⟩ := h
  cases n with
  | nil => exact absurd rfl h0
  | cons c cs =>
    have hc : ¬ (c = '-' ∨ c = '=') := by
      rintro (e | e)
      · exact h1 (by simp [e])
      · exact h2 (by simp [e])
    have hcs : '=' ∉ cs := fun e => h2 (by simp [e])
    refine ⟨?_, fun v => ?_⟩
    · simp only [nameArg, if_neg hc, splitEq_none cs hcs]
    · simp only [List.cons_append, nameArg, if_neg hc, splitEq_some v cs hcs]

theorem classify_dash (d : Bool) {r : Text} (h0 : r ≠ []) (h1 : r.head? ≠ some '-') : classify ((if d then ['-', '-'] else ['-']) ++ r) = nameArg r := by
  cases r with
  | nil => exact absurd rfl h0
  | cons c cs =>
    have hc : c ≠ '-' := fun e => h1 (by simp [e])
    cases d with
    | false => simp only [Bool.false_eq_true, if_false, List.singleton_append, classify, if_neg hc]
    | true => simp [classify]

theorem classify_opt {o : Opt} (h : GoodName o.name) : classify (o.dashes ++ o.name) = .opt o.name none
    ∧ ∀ v, classify (o.dashes ++ o.name ++ '=' :: v) = .opt o.name (some v) := by
  obtain ⟨g1, g2⟩ := nameArg_good h
  refine ⟨?_, fun v => ?_⟩
  · rw [Opt.dashes, classify_dash _ h.1 h.2.1, g1]
  · rw [Opt.dashes, List.append_assoc, classify_dash _ (by simp) ?_, g2 v]
    cases hn : o.name with
    | nil => exact absurd hn h.1
    | cons c cs => have := h.2.1; rw [hn] at this; simpa using this

theorem lookup_mem {α : Type} {l : List (Text × α)} {n : Text} {k : α} (h : l.lookup n = some k) : (n, k) ∈ l := by
  induction l with
  | nil => simp at h
  | cons x l ih =>
    obtain ⟨m, k'⟩ := x
    rw [List.lookup_cons] at h
    split at h
    · rename_i he
      have : n = m := by simpa using he
      injection h with h
      subst this h
      simp
    · exact List.mem_cons_of_mem _ (ih h)

theorem goodName_of_kind {F : FlagSet} (hg : GoodNames F) {n : Text} {k : Kind} (h : kindOf F n = some k) : GoodName n := hg _ (lookup_mem h)

/-- A valid option is read. -/
theorem parse_valid (F : FlagSet) (hg : GoodNames F) (o : Opt) (hv : o.Valid F) (rest : List Text) :
    parse F none (o.args ++ rest) = ((o.name, o.value) :: (parse F none rest).1, (parse F none rest).2) := by
  obtain ⟨k, h1, h2, h3⟩ := hv
  obtain ⟨c1, c2⟩ := classify_opt (goodName_of_kind hg h1)
  cases hs : o.spelling with
  | joined =>
    simp only [Opt.args, hs, List.singleton_append, parse, c2 o.value, h1]
    rw [assign, if_pos h2]
  | apart =>
    rw [hs] at h3
    simp only at h3
    simp [Opt.args, hs, parse, c1, h1, h3, assign, h2]
  | alone =>
    rw [hs] at h3
    simp only at h3
    obtain ⟨h3, h4⟩ := h3
    simp only [Opt.args, hs, List.singleton_append, parse, c1, h1, h3, if_true]
    rw [← h4, assign, if_pos h2]

theorem parse_valids (F : FlagSet) (hg : GoodNames F) (opts : List Opt) (hv : ∀ o ∈ opts, o.Valid F) (rest : List Text) :
    parse F none (argsOf opts ++ rest) = (opts.map (fun o => (o.name, o.value)) ++ (parse F none rest).1, (parse F none rest).2) := by
  induction opts with
  | nil => rfl
  | cons o opts ih =>
    rw [argsOf, List.flatMap_cons, List.append_assoc, parse_valid F hg o (hv o (by simp)), show opts.flatMap Opt.args = argsOf opts from rfl,
      ih (fun o ho => hv o (by simp [ho]))]
    rfl

theorem parse_end (F : FlagSet) (tail : List Text) (ht : EndsOptions tail) : ∃ rest, parse F none tail = ([], .done rest) := by
  rcases ht with rfl | ⟨rest, rfl⟩ | ⟨a, rest, rfl, ha⟩
  · exact ⟨[], rfl⟩
  · exact ⟨rest, by simp [parse, classify]⟩
  · refine ⟨a :: rest, ?_⟩
    have : classify a = .plain := by
      rcases ha with h | rfl
      · unfold classify
        split
        · simp at h
        · rfl
      · rfl
    simp [parse, this]

theorem classify_inv (a : Text) : match classify a with
    | .plain => Plain a
    | .terminator => a = ['-', '-']
    | .bad => ∃ d r, a = d ++ r ∧ (d = ['-'] ∧ r.head? = some '=' ∨ d = ['-', '-'] ∧ (r.head? = some '-' ∨ r.head? = some '='))
    | .opt n v => GoodName n ∧ ∃ d : Bool, a = (if d then ['-', '-'] else ['-']) ++ n ++ (match v with | none => [] | some v => '=' :: v) := by
  have name : ∀ (d : Bool) (r : Text), r ≠ [] → match nameArg r with
      | .plain => False
      | .terminator => False
      | .bad => r.head? = some '-' ∨ r.head? = some '='
      | .opt n v => GoodName n ∧ r = n ++ (match v with | none => [] | some v => '=' :: v) := by
    intro d r hr
    cases r with
    | nil => exact absurd rfl hr
    | cons c cs =>
      rw [nameArg]
      split
      · rename_i e
        split at e
        · simp at e
        · simp at e
      · rename_i e
        split at e
        · simp at e
        · simp at e
      · rename_i e
        split at e
        · rename_i hc
          rcases hc with rfl | rfl <;> simp
        · simp at e
      · rename_i n v e
        split at e
        · simp at e
        · rename_i hc
          injection e with e1 e2
          obtain ⟨s1, s2, s3⟩ := splitEq_inv cs
          subst e1
          refine ⟨⟨by simp, by simp; exact fun e => hc (Or.inl e), ?_⟩, ?_⟩
          · simp only [List.mem_cons, not_or]
            exact ⟨fun e => hc (Or.inr e.symm), s1⟩
          · cases v with
            | none => rw [List.append_nil, ← s2 e2]
            | some v => simp only [List.cons_append]; rw [← s3 v e2]
  match a with
  | [] => exact Or.inl (by simp)
  | [c] =>
    by_cases hc : c = '-'
    · subst hc; exact Or.inr rfl
    · have : classify [c] = .plain := by unfold classify; split <;> simp_all
      rw [this]
      exact Or.inl (by simpa using hc)
  | c :: c2 :: cs =>
    by_cases hc : c = '-'
    · subst hc
      by_cases h2 : c2 = '-'
      · subst h2
        by_cases h3 : cs = []
        · subst h3; simp [classify]
        · have hn := name true cs h3
          simp only [classify, if_true, if_neg h3]
          cases hm : nameArg cs with
          | plain => rw [hm] at hn; exact hn.elim
          | terminator => rw [hm] at hn; exact hn.elim
          | bad => rw [hm] at hn; exact ⟨['-', '-'], cs, rfl, Or.inr ⟨rfl, hn⟩⟩
          | opt n v => rw [hm] at hn; exact ⟨hn.1, true, by rw [hn.2]; simp⟩
      · have hn := name false (c2 :: cs) (by simp)
        simp only [classify, if_neg h2]
        cases hm : nameArg (c2 :: cs) with
        | plain => rw [hm] at hn; exact hn.elim
        | terminator => rw [hm] at hn; exact hn.elim
        | bad =>
          rw [hm] at hn
          refine ⟨['-'], c2 :: cs, rfl, Or.inl ⟨rfl, ?_⟩⟩
          rcases hn with hn | hn
          · simp at hn; exact absurd hn h2
          · exact hn
        | opt n v => rw [hm] at hn; exact ⟨hn.1, false, by rw [hn.2]; simp⟩
    · have : classify (c :: c2 :: cs) = .plain := by unfold classify; split <;> simp_all
      rw [this]
      exact Or.inl (by simpa using hc)

/-- Every command line consists of valid options and something behind them. -/
theorem parse_every (F : FlagSet) : ∀ (n : Nat) (args : List Text), args.length ≤ n →
    ∃ (opts : List Opt) (tail : List Text), args = argsOf opts ++ tail ∧ (∀ o ∈ opts, o.Valid F)
      ∧ ((EndsOptions tail ∧ ∃ rest, parse F none args = (opts.map (fun o => (o.name, o.value)), .done rest))
        ∨ ∃ st, Refused F tail st ∧ parse F none args = (opts.map (fun o => (o.name, o.value)), .exit st)) := by
  intro n
  induction n with
  | zero =>
    intro args h
    obtain rfl := List.length_eq_zero_iff.mp (Nat.le_zero.mp h)
    exact ⟨[], [], rfl, by simp, Or.inl ⟨Or.inl rfl, [], rfl⟩⟩
  | succ n ih =>
    intro args h
    -- one option in front
    have step : ∀ (o : Opt) (rest : List Text), o.Valid F → args = o.args ++ rest → rest.length ≤ n →
        parse F none args = ((o.name, o.value) :: (parse F none rest).1, (parse F none rest).2) →
        ∃ (opts : List Opt) (tail : List Text), args = argsOf opts ++ tail ∧ (∀ o ∈ opts, o.Valid F)
          ∧ ((EndsOptions tail ∧ ∃ rest, parse F none args = (opts.map (fun o => (o.name, o.value)), .done rest))
            ∨ ∃ st, Refused F tail st ∧ parse F none args = (opts.map (fun o => (o.name, o.value)), .exit st)) := by
      intro o rest hv ha hl hp
      obtain ⟨opts, tail, e1, e2, e3⟩ := ih rest hl
      refine ⟨o :: opts, tail, ?_, ?_, ?_⟩
      · rw [ha, e1]; simp [argsOf]
      · intro o' ho'
        rcases List.mem_cons.mp ho' with rfl | ho'
        · exact hv
        · exact e2 o' ho'
      · rcases e3 with ⟨t1, r, t2⟩ | ⟨st, t1, t2⟩
        · exact Or.inl ⟨t1, r, by rw [hp, t2]; rfl⟩
        · exact Or.inr ⟨st, t1, by rw [hp, t2]; rfl⟩
    cases args with
    | nil => exact ⟨[], [], rfl, by simp, Or.inl ⟨Or.inl rfl, [], rfl⟩⟩
    | cons a rest =>
      have hl : rest.length ≤ n := by simpa using h
      have hi := classify_inv a
      cases hc : classify a with
      | plain =>
        rw [hc] at hi
        exact ⟨[], a :: rest, rfl, by simp, Or.inl ⟨Or.inr (Or.inr ⟨a, rest, rfl, hi⟩), a :: rest, by simp [parse, hc]⟩⟩
      | terminator =>
        rw [hc] at hi
        exact ⟨[], a :: rest, rfl, by simp, Or.inl ⟨Or.inr (Or.inl ⟨rest, by rw [hi]⟩), rest, by simp [parse, hc]⟩⟩
      | bad =>
        rw [hc] at hi
        exact ⟨[], a :: rest, rfl, by simp, Or.inr ⟨2, .syntax a rest hi, by simp [parse, hc]⟩⟩
      | opt nm v =>
        rw [hc] at hi
        obtain ⟨hgn, d, ha⟩ := hi
        cases hk : kindOf F nm with
        | none =>
          let o : Opt := ⟨nm, v.getD [], d, if v = none then .alone else .joined⟩
          have hargs : o.args = [a] := by
            cases v with
            | none => simp [o, Opt.args, Opt.dashes, ha]
            | some v => simp [o, Opt.args, Opt.dashes, ha]
          have hsp : o.spelling ≠ .apart := by
            simp only [o]; split <;> simp
          have hp : parse F none (a :: rest) = ([], .exit (if nm = "help".toList ∨ nm = "h".toList then 0 else 2)) := by
            simp only [parse, hc, hk]
          refine ⟨[], a :: rest, rfl, by simp, Or.inr ⟨_, ?_, hp⟩⟩
          have hr : a :: rest = o.args ++ rest := by rw [hargs]; rfl
          rw [hr]
          split
          · rename_i hh
            exact .help o rest hk hh hsp
          · rename_i hh
            exact .unknown o rest hk hgn.1 hgn.2.1 hgn.2.2 hsp (fun e => hh (Or.inl e)) (fun e => hh (Or.inr e))
        | some k =>
          cases v with
          | some v =>
            let o : Opt := ⟨nm, v, d, .joined⟩
            have hargs : a :: rest = o.args ++ rest := by simp [o, Opt.args, Opt.dashes, ha]
            cases hs : setOK F nm k v with
            | true =>
              refine step o rest ⟨k, hk, hs, trivial⟩ hargs hl ?_
              simp only [parse, hc, hk, hs, assign, if_true]; rfl
            | false =>
              refine ⟨[], a :: rest, rfl, by simp, Or.inr ⟨2, ?_, ?_⟩⟩
              · rw [hargs]; exact .value o k rest hk hs trivial
              · simp [parse, hc, hk, hs, assign]
          | none =>
            cases hb : k.isBool with
            | true =>
              let o : Opt := ⟨nm, "true".toList, d, .alone⟩
              have hargs : a :: rest = o.args ++ rest := by simp [o, Opt.args, Opt.dashes, ha]
              cases hs : setOK F nm k "true".toList with
              | true =>
                refine step o rest ⟨k, hk, hs, hb, rfl⟩ hargs hl ?_
                simp only [parse, hc, hk, hb, hs, assign, if_true]; rfl
              | false =>
                refine ⟨[], a :: rest, rfl, by simp, Or.inr ⟨2, ?_, ?_⟩⟩
                · rw [hargs]; exact .value o k rest hk hs ⟨hb, rfl⟩
                · simp only [parse, hc, hk, hb, hs, assign, if_true, Bool.false_eq_true, if_false]; rfl
            | false =>
              cases rest with
              | nil =>
                let o : Opt := ⟨nm, [], d, .alone⟩
                have hargs : [a] = o.args := by simp [o, Opt.args, Opt.dashes, ha]
                refine ⟨[], [a], rfl, by simp, Or.inr ⟨2, ?_, ?_⟩⟩
                · rw [hargs]; exact .missing o k hk hb rfl
                · simp [parse, hc, hk, hb]
              | cons v rest =>
                let o : Opt := ⟨nm, v, d, .apart⟩
                have hargs : a :: v :: rest = o.args ++ rest := by simp [o, Opt.args, Opt.dashes, ha]
                cases hs : setOK F nm k v with
                | true =>
                  refine step o rest ⟨k, hk, hs, hb⟩ hargs (by simp at hl; omega) ?_
                  simp only [parse, hc, hk, hb, hs, assign, if_true, Bool.false_eq_true, if_false]; rfl
                | false =>
                  refine ⟨[], a :: v :: rest, rfl, by simp, Or.inr ⟨2, ?_, ?_⟩⟩
                  · rw [hargs]; exact .value o k rest hk hs hb
                  · simp [parse, hc, hk, hb, hs, assign]

/-! ## The variables -/

theorem setAll_field {α : Type} (F : FlagSet) (π : Settings → α) (name : Text) (g : Text → α → α)
    (h : ∀ s n v, π (s.set F n v) = if n = name then g v (π s) else π s) (l : List (Text × Text)) : ∀ s : Settings,
    π (s.setAll F l) = ((l.filter (fun p => p.1 = name)).map (·.2)).foldl (fun a v => g v a) (π s) := by
  induction l with
  | nil => intro s; rfl
  | cons p l ih =>
    intro s
    rw [Settings.setAll, List.foldl_cons, ← Settings.setAll, ih, h]
    by_cases hp : p.1 = name
    · rw [if_pos hp, List.filter_cons_of_pos (by simpa using hp)]; rfl
    · rw [if_neg hp, List.filter_cons_of_neg (by simpa using hp)]

theorem foldl_last {α : Type} (g : Text → α) (l : List Text) : ∀ a : α, l.foldl (fun _ v => g v) a = (l.getLast?.map g).getD a := by
  induction l with
  | nil => intro a; rfl
  | cons x l ih =>
    intro a
    rw [List.foldl_cons, ih]
    cases l with
    | nil => rfl
    | cons y l => rw [List.getLast?_cons_cons]; simp [List.getLast?_cons]

theorem foldl_flat {α : Type} (g : Text → List α) (l : List Text) : ∀ a : List α, l.foldl (fun a v => a ++ g v) a = a ++ l.flatMap g := by
  induction l with
  | nil => intro a; simp
  | cons x l ih => intro a; rw [List.foldl_cons, ih]; simp

/-- What the environment gives for one flag. -/
theorem fromEnv_filter (F : FlagSet) (hn : (F.flags.map (·.1)).Nodup) (env : Text → Option Text) (gv : List (Text × Text)) (name : Text)
    (hm : name ∈ F.flags.map (·.1)) :
    ((fromEnv F env gv).filter (fun p => p.1 = name)).map (·.2) = if name ∈ gv.map (·.1) then [] else (env (shellName name)).toList := by
  unfold fromEnv
  generalize F.flags = fl at hn hm
  have none_ : ∀ fl : List (Text × Kind), name ∉ fl.map (·.1) →
      ((fl.filterMap (fun f => if f.1 ∈ gv.map (·.1) then none else (env (shellName f.1)).map (fun v => (f.1, v)))).filter (fun p => p.1 = name)).map (·.2) = [] := by
    intro fl h
    rw [List.map_eq_nil_iff, List.filter_eq_nil_iff]
    intro p hp
    obtain ⟨f, hf, hfe⟩ := List.mem_filterMap.mp hp
    split at hfe
    · simp at hfe
    · obtain ⟨v, _, rfl⟩ := Option.map_eq_some_iff.mp hfe
      intro e
      exact h (List.mem_map.mpr ⟨f, hf, by simpa using e⟩)
  induction fl with
  | nil => simp at hm
  | cons f fl ih =>
    rw [List.map_cons, List.nodup_cons] at hn
    by_cases hf : f.1 = name
    · subst hf
      rw [List.filterMap_cons]
      split
      · rename_i e
        rw [none_ fl hn.1]
        split at e
        · rename_i hg; rw [if_pos hg]
        · rename_i hg; rw [if_neg hg]; rw [Option.map_eq_none_iff] at e; rw [e]; rfl
      · rename_i p e
        split at e
        · simp at e
        · rename_i hg
          obtain ⟨v, e1, rfl⟩ := Option.map_eq_some_iff.mp e
          rw [if_neg hg, List.filter_cons_of_pos (by simp), List.map_cons, none_ fl hn.1, e1]; rfl
    · have hm' : name ∈ fl.map (·.1) := by
        rw [List.map_cons, List.mem_cons] at hm
        exact hm.resolve_left (fun e => hf e.symm)
      rw [← ih hn.2 hm', List.filterMap_cons]
      split
      · rfl
      · rename_i p e
        split at e
        · simp at e
        · obtain ⟨v, _, rfl⟩ := Option.map_eq_some_iff.mp e
          rw [List.filter_cons_of_neg (by simpa using hf)]

theorem given_filter (opts : List Opt) (name : String) :
    ((opts.map (fun o => (o.name, o.value))).filter (fun p => p.1 = name.toList)).map (·.2) = given opts name := by
  unfold given
  rw [List.filter_map, List.map_map]
  rfl

theorem given_mem (opts : List Opt) (name : String) : name.toList ∈ (opts.map (fun o => (o.name, o.value))).map (·.1) ↔ given opts name ≠ [] := by
  rw [← given_filter]
  constructor
  · intro h e
    obtain ⟨p, hp, he⟩ := List.mem_map.mp h
    rw [List.map_eq_nil_iff, List.filter_eq_nil_iff] at e
    exact e p hp (by simpa using he)
  · intro h
    obtain ⟨v, hv⟩ := List.exists_mem_of_ne_nil _ h
    obtain ⟨p, hp, _⟩ := List.mem_map.mp hv
    obtain ⟨h1, h2⟩ := List.mem_filter.mp hp
    exact List.mem_map.mpr ⟨p, h1, by simpa using h2⟩

/-- A field that keeps the last value. -/
theorem effective_field {α : Type} (F : FlagSet) (hn : (F.flags.map (·.1)).Nodup) (π : Settings → α) (name var : String) (g : Text → α)
    (hm : name.toList ∈ F.flags.map (·.1)) (hs : shellName name.toList = var.toList)
    (h : ∀ s n v, π (s.set F n v) = if n = name.toList then g v else π s) (opts : List Opt) (env : Text → Option Text) (s : Settings) :
    π ((s.setAll F (opts.map (fun o => (o.name, o.value)))).setAll F (fromEnv F env (opts.map (fun o => (o.name, o.value)))))
      = ((effective opts env name var).map g).getD (π s) := by
  have hf := setAll_field F π name.toList (fun v _ => g v) h
  rw [hf, fromEnv_filter F hn env _ _ hm, hf, given_filter, foldl_last, foldl_last, hs]
  unfold effective
  have hgm := given_mem opts name
  cases hg : (given opts name).getLast? with
  | none =>
    have : given opts name = [] := List.getLast?_eq_none_iff.mp hg
    rw [if_neg (by rw [hgm]; simp [this])]
    cases env var.toList <;> rfl
  | some v =>
    have : given opts name ≠ [] := by intro e; rw [e] at hg; simp at hg
    rw [if_pos (hgm.mpr this)]
    rfl

/-- A field that collects all values. -/
theorem all_field (F : FlagSet) (hn : (F.flags.map (·.1)).Nodup) (π : Settings → List Text) (name var : String)
    (hm : name.toList ∈ F.flags.map (·.1)) (hs : shellName name.toList = var.toList)
    (h : ∀ s n v, π (s.set F n v) = if n = name.toList then π s ++ F.items v else π s) (opts : List Opt) (env : Text → Option Text) (s : Settings) (h0 : π s = []) :
    π ((s.setAll F (opts.map (fun o => (o.name, o.value)))).setAll F (fromEnv F env (opts.map (fun o => (o.name, o.value)))))
      = (allValues opts env name var).flatMap F.items := by
  have hf := setAll_field F π name.toList (fun v a => a ++ F.items v) h
  rw [hf, fromEnv_filter F hn env _ _ hm, hf, given_filter, foldl_flat, foldl_flat, hs, h0]
  unfold allValues
  have hgm := given_mem opts name
  by_cases hg : given opts name = []
  · rw [if_neg (by rw [hgm]; simp [hg]), if_pos hg, hg]; simp
  · rw [if_pos (hgm.mpr hg), if_neg hg]; simp

/-- The settings of `tcp-info`. -/
theorem settings_main (L : Libs) (hn : ((mainFlags L).flags.map (·.1)).Nodup) (opts : List Opt) (env : Text → Option Text) :
    (defaults.setAll (mainFlags L) (opts.map (fun o => (o.name, o.value)))).setAll (mainFlags L) (fromEnv (mainFlags L) env (opts.map (fun o => (o.name, o.value))))
      = settingsOf L.items opts env := by
  have hm : ∀ n ∈ ownFlags.map (·.1), n ∈ (mainFlags L).flags.map (·.1) := by
    intro n h
    simp only [mainFlags, List.map_append, List.mem_append]
    exact Or.inl h
  have e1 := effective_field (mainFlags L) hn (·.reps) "reps" "REPS" (fun v => (parseInt v).1) (hm _ (by decide)) (by decide)
    (by intro s n v; unfold Settings.set; split; · rfl
        · repeat (first | rfl | split)) opts env defaults
  have e2 := effective_field (mainFlags L) hn (·.trace) "trace" "TRACE" (fun v => (parseBool v).getD false) (hm _ (by decide)) (by decide)
    (by intro s n v; unfold Settings.set
        by_cases h1 : n = "reps".toList
        · rw [if_pos h1, if_neg (by rw [h1]; decide)]
        · rw [if_neg h1]; split; · rfl
          · repeat (first | rfl | split)) opts env defaults
  have e3 := effective_field (mainFlags L) hn (·.output) "output" "OUTPUT" (fun v => v) (hm _ (by decide)) (by decide)
    (by intro s n v; unfold Settings.set
        by_cases h1 : n = "reps".toList
        · rw [if_pos h1, if_neg (by rw [h1]; decide)]
        by_cases h2 : n = "trace".toList
        · rw [if_neg h1, if_pos h2, if_neg (by rw [h2]; decide)]
        · rw [if_neg h1, if_neg h2]; split; · rfl
          · repeat (first | rfl | split)) opts env defaults
  have e4 := all_field (mainFlags L) hn (·.srcPorts) "exclude-srcport" "EXCLUDE_SRCPORT" (hm _ (by decide)) (by decide)
    (by intro s n v; unfold Settings.set
        by_cases h1 : n = "reps".toList
        · rw [if_pos h1, if_neg (by rw [h1]; decide)]
        by_cases h2 : n = "trace".toList
        · rw [if_neg h1, if_pos h2, if_neg (by rw [h2]; decide)]
        by_cases h3 : n = "output".toList
        · rw [if_neg h1, if_neg h2, if_pos h3, if_neg (by rw [h3]; decide)]
        · rw [if_neg h1, if_neg h2, if_neg h3]; split; · rfl
          · repeat (first | rfl | split)) opts env defaults rfl
  have e5 := all_field (mainFlags L) hn (·.dstIPs) "exclude-dstip" "EXCLUDE_DSTIP" (hm _ (by decide)) (by decide)
    (by intro s n v; unfold Settings.set
        by_cases h1 : n = "reps".toList
        · rw [if_pos h1, if_neg (by rw [h1]; decide)]
        by_cases h2 : n = "trace".toList
        · rw [if_neg h1, if_pos h2, if_neg (by rw [h2]; decide)]
        by_cases h3 : n = "output".toList
        · rw [if_neg h1, if_neg h2, if_pos h3, if_neg (by rw [h3]; decide)]
        by_cases h4 : n = "exclude-srcport".toList
        · rw [if_neg h1, if_neg h2, if_neg h3, if_pos h4, if_neg (by rw [h4]; decide)]
        · rw [if_neg h1, if_neg h2, if_neg h3, if_neg h4]; split; · rfl
          · repeat (first | rfl | split)) opts env defaults rfl
  have e6 := effective_field (mainFlags L) hn (·.socket) "tcpinfo.eventsocket" "TCPINFO_EVENTSOCKET" (fun v => v) (hm _ (by decide)) (by decide)
    (by intro s n v; unfold Settings.set
        by_cases h1 : n = "reps".toList
        · rw [if_pos h1, if_neg (by rw [h1]; decide)]
        by_cases h2 : n = "trace".toList
        · rw [if_neg h1, if_pos h2, if_neg (by rw [h2]; decide)]
        by_cases h3 : n = "output".toList
        · rw [if_neg h1, if_neg h2, if_pos h3, if_neg (by rw [h3]; decide)]
        by_cases h4 : n = "exclude-srcport".toList
        · rw [if_neg h1, if_neg h2, if_neg h3, if_pos h4, if_neg (by rw [h4]; decide)]
        by_cases h5 : n = "exclude-dstip".toList
        · rw [if_neg h1, if_neg h2, if_neg h3, if_neg h4, if_pos h5, if_neg (by rw [h5]; decide)]
        · rw [if_neg h1, if_neg h2, if_neg h3, if_neg h4, if_neg h5]; split <;> rfl) opts env defaults
  generalize (defaults.setAll (mainFlags L) (opts.map (fun o => (o.name, o.value)))).setAll (mainFlags L) (fromEnv (mainFlags L) env (opts.map (fun o => (o.name, o.value)))) = S
    at e1 e2 e3 e4 e5 e6 ⊢
  obtain ⟨a, b, c, d, e, f⟩ := S
  simp only at e1 e2 e3 e4 e5 e6
  subst e1 e2 e3 e4 e5 e6
  have h2 : ((effective opts env "trace" "TRACE").map (fun v => (parseBool v).getD false)).getD defaults.trace = ((effective opts env "trace" "TRACE").bind parseBool).getD false := by
    cases effective opts env "trace" "TRACE" <;> rfl
  have h3 : ∀ x : Option Text, x.map (fun v => v) = x := by intro x; cases x <;> rfl
  simp only [settingsOf, h2, h3]
  rfl

theorem socket_set (F : FlagSet) (s : Settings) (n v : Text) : (s.set F n v).socket = if n = "tcpinfo.eventsocket".toList then v else s.socket := by
  unfold Settings.set
  by_cases h1 : n = "reps".toList
  · rw [if_pos h1, if_neg (by rw [h1]; decide)]
  by_cases h2 : n = "trace".toList
  · rw [if_neg h1, if_pos h2, if_neg (by rw [h2]; decide)]
  by_cases h3 : n = "output".toList
  · rw [if_neg h1, if_neg h2, if_pos h3, if_neg (by rw [h3]; decide)]
  by_cases h4 : n = "exclude-srcport".toList
  · rw [if_neg h1, if_neg h2, if_neg h3, if_pos h4, if_neg (by rw [h4]; decide)]
  by_cases h5 : n = "exclude-dstip".toList
  · rw [if_neg h1, if_neg h2, if_neg h3, if_neg h4, if_pos h5, if_neg (by rw [h5]; decide)]
  · rw [if_neg h1, if_neg h2, if_neg h3, if_neg h4, if_neg h5]; split <;> rfl

theorem lookup_of_mem {α : Type} {l : List (Text × α)} (hn : (l.map (·.1)).Nodup) {n : Text} {k : α} (h : (n, k) ∈ l) : l.lookup n = some k := by
  induction l with
  | nil => simp at h
  | cons x l ih =>
    rw [List.map_cons, List.nodup_cons] at hn
    rw [List.lookup_cons]
    rcases List.mem_cons.mp h with rfl | h
    · simp
    · have : (n == x.1) = false := by
        rw [beq_eq_false_iff_ne]
        intro e
        exact hn.1 (List.mem_map.mpr ⟨(n, k), h, e⟩)
      rw [this]
      exact ih hn.2 h

/-- Whether `ArgsFromEnv` returns no error. -/
theorem envOK_iff (F : FlagSet) (hn : (F.flags.map (·.1)).Nodup) (env : Text → Option Text) (opts : List Opt) :
    envOK F env (opts.map (fun o => (o.name, o.value))) = true ↔
      ∀ f ∈ F.flags, (∀ o ∈ opts, o.name ≠ f.1) → ∀ v, env (shellName f.1) = some v → setOK F f.1 f.2 v = true := by
  have hg : ∀ n : Text, n ∈ (opts.map (fun o => (o.name, o.value))).map (·.1) ↔ ∃ o ∈ opts, o.name = n := by
    intro n; simp
  unfold envOK
  rw [List.all_eq_true]
  constructor
  · intro h f hf ho v hv
    have hm : (f.1, v) ∈ fromEnv F env (opts.map (fun o => (o.name, o.value))) := by
      unfold fromEnv
      refine List.mem_filterMap.mpr ⟨f, hf, ?_⟩
      rw [if_neg, hv]
      · rfl
      · rw [hg]; rintro ⟨o, h1, h2⟩; exact ho o h1 h2
    have := h _ hm
    simp only [kindOf, lookup_of_mem hn (show (f.1, f.2) ∈ F.flags from hf)] at this
    exact this
  · intro h p hp
    obtain ⟨f, hf, hfe⟩ := List.mem_filterMap.mp hp
    split at hfe
    · simp at hfe
    · rename_i hno
      obtain ⟨v, hv, rfl⟩ := Option.map_eq_some_iff.mp hfe
      simp only [kindOf, lookup_of_mem hn (show (f.1, f.2) ∈ F.flags from hf)]
      exact h f hf (fun o ho e => hno ((hg _).mpr ⟨o, ho, e⟩)) v hv

theorem filterMap_congr_mem {α β : Type} (l : List α) (f g : α → Option β) (h : ∀ a ∈ l, f a = g a) : l.filterMap f = l.filterMap g := by
  induction l with
  | nil => rfl
  | cons a l ih => rw [List.filterMap_cons, List.filterMap_cons, h a (by simp), ih (fun a ha => h a (by simp [ha]))]

/-! ## Numerals -/

theorem digitVal_digitChar : ∀ d, d < 10 → Flags.digitVal (Nat.digitChar d) = some d ∧ Nat.digitChar d ≠ '_' := by decide

theorem digits_toDigits (v : Nat) : v < 2 ^ 64 → ∀ r, digits 10 0 (Nat.toDigits 10 v ++ r) = digits 10 v r := by
  induction v using Nat.strongRecOn with
  | ind v ih =>
    intro hv r
    by_cases h : v < 10
    · obtain ⟨h1, h2⟩ := digitVal_digitChar v h
      have h3 : ¬ 2 ^ 64 ≤ v := by omega
      rw [Nat.toDigits_of_lt_base h, List.singleton_append, digits, if_neg h2, h1]
      simp only [if_neg (show ¬ 10 ≤ v by omega), if_neg h3, Nat.zero_mul, Nat.zero_add]
    · have hd : v / 10 < v := Nat.div_lt_self (by omega) (by omega)
      obtain ⟨h1, h2⟩ := digitVal_digitChar (v % 10) (Nat.mod_lt _ (by omega))
      have h3 : v / 10 * 10 + v % 10 = v := by omega
      rw [Nat.toDigits_of_base_le (by omega) (by omega), List.append_assoc, List.singleton_append, ih _ hd (by omega), digits, if_neg h2, h1]
      simp only [if_neg (show ¬ 10 ≤ v % 10 by omega), h3, if_neg (show ¬ 2 ^ 64 ≤ v by omega)]

theorem toDigits_digits (v : Nat) : ∀ c ∈ Nat.toDigits 10 v, ∃ d, d < 10 ∧ c = Nat.digitChar d := by
  induction v using Nat.strongRecOn with
  | ind v ih =>
    intro c hc
    by_cases h : v < 10
    · rw [Nat.toDigits_of_lt_base h] at hc
      exact ⟨v, h, by simpa using hc⟩
    · rw [Nat.toDigits_of_base_le (by omega) (by omega)] at hc
      rcases List.mem_append.mp hc with hc | hc
      · exact ih _ (Nat.div_lt_self (by omega) (by omega)) c hc
      · exact ⟨v % 10, Nat.mod_lt _ (by omega), by simpa using hc⟩

theorem toDigits_first (v : Nat) : 0 < v → ∃ d r, 0 < d ∧ d < 10 ∧ Nat.toDigits 10 v = Nat.digitChar d :: r := by
  induction v using Nat.strongRecOn with
  | ind v ih =>
    intro hv
    by_cases h : v < 10
    · exact ⟨v, [], hv, h, Nat.toDigits_of_lt_base h⟩
    · obtain ⟨d, r, h1, h2, h3⟩ := ih (v / 10) (Nat.div_lt_self (by omega) (by omega)) (by omega)
      exact ⟨d, r ++ [Nat.digitChar (v % 10)], h1, h2, by rw [Nat.toDigits_of_base_le (by omega) (by omega), h3]; rfl⟩

theorem digitChar_not : ∀ d, d < 10 → 0 < d → Nat.digitChar d ≠ '0' := by decide

theorem digitChar_sign : ∀ d, d < 10 → Nat.digitChar d ≠ '+' ∧ Nat.digitChar d ≠ '-' := by decide

theorem parseUint_toDigits (v : Nat) (hv : v < 2 ^ 64) : parseUint (Nat.toDigits 10 v) = (v, none) := by
  by_cases h0 : v = 0
  · subst h0; decide
  · obtain ⟨d, r, h1, h2, h3⟩ := toDigits_first v (by omega)
    have hb : basePrefix (Nat.toDigits 10 v) = (10, Nat.toDigits 10 v) := by
      rw [h3]
      have := digitChar_not d h2 h1
      generalize Nat.digitChar d = c at this
      unfold basePrefix
      split
      · rename_i e; injection e with e1; exact absurd e1 this
      · rename_i e; injection e with e1; exact absurd e1 this
      · rfl
    have hu : '_' ∉ Nat.toDigits 10 v := by
      intro h
      obtain ⟨d, hd, e⟩ := toDigits_digits v _ h
      exact (digitVal_digitChar d hd).2 e.symm
    have hne : Nat.toDigits 10 v ≠ [] := by rw [h3]; simp
    have hd := digits_toDigits v hv []
    rw [List.append_nil] at hd
    unfold parseUint
    rw [if_neg hne, hb]
    simp only [hd, digits, hu, false_and, if_false]

/-- Decimal numerals are understood. -/
theorem parseInt_toString (i : Int) (h1 : -2 ^ 63 ≤ i) (h2 : i < 2 ^ 63) : parseInt (toString i).toList = (i, none) := by
  cases i with
  | ofNat n =>
    have e : (toString (Int.ofNat n)).toList = Nat.toDigits 10 n := by
      have : toString (Int.ofNat n) = Nat.repr n := rfl
      rw [this, Nat.repr]; simp
    have hn : n < 2 ^ 63 := by
      have : ((n : Nat) : Int) < 2 ^ 63 := h2
      omega
    obtain ⟨d, r, hd, e2⟩ := toDigits_cons 10 (by omega) n
    have hs := digitChar_sign d hd
    have hh : (Nat.toDigits 10 n).head? = some (Nat.digitChar d) := by rw [e2]; rfl
    have hne : Nat.toDigits 10 n ≠ [] := by rw [e2]; simp
    rw [e]
    unfold parseInt
    rw [if_neg hne]
    simp only [hh, Option.some.injEq, hs.1, hs.2, or_self, if_false, parseUint_toDigits n (by omega), not_false_eq_true, true_and, false_and,
      if_neg (show ¬ 2 ^ 63 ≤ n by omega)]
    rfl
  | negSucc n =>
    have e : (toString (Int.negSucc n)).toList = '-' :: Nat.toDigits 10 (n + 1) := by
      have : toString (Int.negSucc n) = "-" ++ Nat.repr (n + 1) := rfl
      rw [this, Nat.repr]; simp
    have hn : n + 1 ≤ 2 ^ 63 := by omega
    rw [e]
    unfold parseInt
    rw [if_neg (by simp)]
    simp only [List.head?_cons, List.tail_cons, or_true, if_true, parseUint_toDigits (n + 1) (by omega), not_true_eq_false, false_and, if_false, true_and,
      if_neg (show ¬ 2 ^ 63 < n + 1 by omega)]
    rfl

/-! ## Numerals -/

theorem char_eq (c : Char) (n : Nat) (h : c.toNat = n) : c = Char.ofNat n := by
  rw [← h, Char.ofNat_toNat]

theorem digitVal_of (c : Char) (d : Nat) (hd : d < 16) (h : IsDigit c d) : Flags.digitVal c = some d := by
  unfold IsDigit at h
  match d, hd with
  | 0, _ | 1, _ | 2, _ | 3, _ | 4, _ | 5, _ | 6, _ | 7, _ | 8, _ | 9, _ | 10, _ | 11, _ | 12, _ | 13, _ | 14, _ | 15, _ =>
    rcases h with h | h <;> (simp at h; subst h; decide)

theorem lowerC_toNat (c : Char) : (lowerC c).toNat = if 65 ≤ c.toNat ∧ c.toNat ≤ 90 then c.toNat + 32 else c.toNat := by
  unfold lowerC
  have e : ('A' ≤ c ∧ c ≤ 'Z') ↔ (65 ≤ c.toNat ∧ c.toNat ≤ 90) := Iff.rfl
  by_cases h : 65 ≤ c.toNat ∧ c.toNat ≤ 90
  · rw [if_pos (e.2 h), if_pos h]
    have hv : (c.toNat + 32).isValidChar := Or.inl (by omega)
    rw [Char.ofNat, dif_pos hv]
    rfl
  · rw [if_neg (fun h' => h (e.1 h')), if_neg h]

theorem isDigit_of (c : Char) (d : Nat) (hd : d < 16) (h : Flags.digitVal c = some d) : IsDigit c d := by
  unfold Flags.digitVal at h
  have e1 : ('0' ≤ c ∧ c ≤ '9') ↔ (48 ≤ c.toNat ∧ c.toNat ≤ 57) := Iff.rfl
  have e2 : ('a' ≤ lowerC c ∧ lowerC c ≤ 'z') ↔ (97 ≤ (lowerC c).toNat ∧ (lowerC c).toNat ≤ 122) := Iff.rfl
  have key : (d < 10 ∧ c = Char.ofNat (48 + d)) ∨ (10 ≤ d ∧ c = Char.ofNat (87 + d)) ∨ (10 ≤ d ∧ c = Char.ofNat (55 + d)) := by
    by_cases h1 : 48 ≤ c.toNat ∧ c.toNat ≤ 57
    · rw [if_pos (e1.2 h1)] at h
      simp only [Option.some.injEq] at h
      exact Or.inl ⟨by omega, char_eq c _ (by omega)⟩
    · rw [if_neg (fun h' => h1 (e1.1 h'))] at h
      by_cases h2 : 97 ≤ (lowerC c).toNat ∧ (lowerC c).toNat ≤ 122
      · rw [if_pos (e2.2 h2)] at h
        simp only [Option.some.injEq] at h
        rw [lowerC_toNat] at h h2
        split at h
        · rename_i h3
          rw [if_pos h3] at h2
          exact Or.inr (Or.inr ⟨by omega, char_eq c _ (by omega)⟩)
        · rename_i h3
          rw [if_neg h3] at h2
          exact Or.inr (Or.inl ⟨by omega, char_eq c _ (by omega)⟩)
      · rw [if_neg (fun h' => h2 (e2.1 h'))] at h
        simp at h
  unfold IsDigit
  rcases key with ⟨h1, rfl⟩ | ⟨h1, rfl⟩ | ⟨h1, rfl⟩
  · left
    match d, h1 with
    | 0, _ | 1, _ | 2, _ | 3, _ | 4, _ | 5, _ | 6, _ | 7, _ | 8, _ | 9, _ => decide
  · left
    clear e1 e2 h
    obtain rfl | rfl | rfl | rfl | rfl | rfl : d = 10 ∨ d = 11 ∨ d = 12 ∨ d = 13 ∨ d = 14 ∨ d = 15 := by omega
    all_goals decide
  · right
    clear e1 e2 h
    obtain rfl | rfl | rfl | rfl | rfl | rfl : d = 10 ∨ d = 11 ∨ d = 12 ∨ d = 13 ∨ d = 14 ∨ d = 15 := by omega
    all_goals decide

theorem isDigit_iff (c : Char) (d : Nat) (hd : d < 16) : IsDigit c d ↔ Flags.digitVal c = some d := ⟨digitVal_of c d hd, isDigit_of c d hd⟩

theorem underscore_no (x : Bool) : ¬ (('0' ≤ '_' ∧ '_' ≤ '9') ∨ (x = true ∧ 'a' ≤ lowerC '_' ∧ lowerC '_' ≤ 'f')) := by cases x <;> decide

/-- The loop that looks at underscores takes digits of the base as digits. -/
theorem underLoop_digit (b : Nat) (hb : b ≤ 10 ∨ b = 16) (c : Char) (d : Nat) (hd : d < b) (h : Flags.digitVal c = some d) (dig und : Bool) (cs : Text) :
    underLoop (decide (b = 16)) dig und (c :: cs) = underLoop (decide (b = 16)) true false cs ∧ c ≠ '_' := by
  have h16 : IsDigit c d := isDigit_of c d (by omega) h
  have hc : (('0' ≤ c ∧ c ≤ '9') ∨ (decide (b = 16) = true ∧ 'a' ≤ lowerC c ∧ lowerC c ≤ 'f')) ∧ c ≠ '_' := by
    unfold IsDigit at h16
    by_cases h10 : d < 10
    · match d, h10 with
      | 0, _ | 1, _ | 2, _ | 3, _ | 4, _ | 5, _ | 6, _ | 7, _ | 8, _ | 9, _ => rcases h16 with h | h <;> (simp at h; subst h; exact ⟨Or.inl (by decide), by decide⟩)
    · have : b = 16 := by omega
      subst this
      match d, h10, hd with
      | 10, _, _ | 11, _, _ | 12, _, _ | 13, _, _ | 14, _, _ | 15, _, _ => rcases h16 with h | h <;> (simp at h; subst h; decide)
  refine ⟨?_, hc.2⟩
  rw [underLoop, if_pos hc.1]

theorem more_mono (b : Nat) (hb : 0 < b) (n : Nat) (t : Text) (v : Nat) (h : More b n t v) : n ≤ v := by
  induction h with
  | nil => exact Nat.le_refl _
  | digit n c d t v _ _ _ ih => exact Nat.le_trans (Nat.le_trans (Nat.le_mul_of_pos_right _ hb) (Nat.le_add_right _ _)) ih
  | under n c d t v _ _ _ ih => exact Nat.le_trans (Nat.le_trans (Nat.le_mul_of_pos_right _ hb) (Nat.le_add_right _ _)) ih

/-- Texts of the grammar are read, if the number has 64 bits. -/
theorem digits_of_more (b : Nat) (hb : b = 2 ∨ b = 8 ∨ b = 10 ∨ b = 16) (n : Nat) (t : Text) (v : Nat) (h : More b n t v) (hv : v < 2 ^ 64) :
    digits b n t = (v, none) ∧ underLoop (decide (b = 16)) true false t = true := by
  induction h with
  | nil n => exact ⟨rfl, rfl⟩
  | digit n c d t v h1 h2 h3 ih =>
    obtain ⟨i1, i2⟩ := ih hv
    have hd := digitVal_of c d (by omega) h1
    obtain ⟨u1, u2⟩ := underLoop_digit b (by omega) c d h2 hd true false t
    have hm := more_mono b (by omega) _ _ _ h3
    refine ⟨?_, by rw [u1]; exact i2⟩
    rw [digits, if_neg u2, hd]
    simp only
    rw [if_neg (by omega), if_neg (by omega), i1]
  | under n c d t v h1 h2 h3 ih =>
    obtain ⟨i1, i2⟩ := ih hv
    have hd := digitVal_of c d (by omega) h1
    obtain ⟨u1, u2⟩ := underLoop_digit b (by omega) c d h2 hd false true t
    have hm := more_mono b (by omega) _ _ _ h3
    refine ⟨?_, ?_⟩
    · rw [digits, if_pos rfl, digits, if_neg u2, hd]
      simp only
      rw [if_neg (by omega), if_neg (by omega), i1]
    · rw [underLoop, if_neg (underscore_no _), if_pos rfl, if_pos rfl, u1]
      exact i2

/-- Only texts of the grammar are read. -/
theorem more_of_digits (b : Nat) (hb : b = 2 ∨ b = 8 ∨ b = 10 ∨ b = 16) : ∀ (t : Text) (n v : Nat), digits b n t = (v, none) →
    ('_' ∈ t → underLoop (decide (b = 16)) true false t = true) → n < 2 ^ 64 → More b n t v ∧ v < 2 ^ 64
  | [], n, v, h, _, hn => by
    simp only [digits, Prod.mk.injEq] at h
    obtain ⟨rfl, -⟩ := h
    exact ⟨.nil n, hn⟩
  | c :: cs, n, v, h, hu, hn => by
    by_cases hc : c = '_'
    · subst hc
      rw [digits, if_pos rfl] at h
      have hu := hu (by simp)
      rw [underLoop, if_neg (underscore_no _), if_pos rfl, if_pos rfl] at hu
      cases cs with
      | nil => simp [underLoop] at hu
      | cons c cs =>
        have hc : c ≠ '_' := by
          rintro rfl
          rw [underLoop, if_neg (underscore_no _)] at hu
          simp at hu
        rw [digits, if_neg hc] at h
        cases hd : Flags.digitVal c with
        | none => rw [hd] at h; simp at h
        | some d =>
          rw [hd] at h
          simp only at h
          by_cases h1 : b ≤ d
          · rw [if_pos h1] at h; simp at h
          · rw [if_neg h1] at h
            by_cases h2 : 2 ^ 64 ≤ n * b + d
            · rw [if_pos h2] at h; simp at h
            · rw [if_neg h2] at h
              rw [(underLoop_digit b (by omega) c d (by omega) hd _ _ cs).1] at hu
              obtain ⟨i1, i2⟩ := more_of_digits b hb cs _ v h (fun _ => hu) (by omega)
              exact ⟨.under n c d cs v (isDigit_of c d (by omega) hd) (by omega) i1, i2⟩
    · rw [digits, if_neg hc] at h
      cases hd : Flags.digitVal c with
      | none => rw [hd] at h; simp at h
      | some d =>
        rw [hd] at h
        simp only at h
        by_cases h1 : b ≤ d
        · rw [if_pos h1] at h; simp at h
        · rw [if_neg h1] at h
          by_cases h2 : 2 ^ 64 ≤ n * b + d
          · rw [if_pos h2] at h; simp at h
          · rw [if_neg h2] at h
            obtain ⟨i1, i2⟩ := more_of_digits b hb cs _ v h (fun hm => by
              have := hu (by simp [hm])
              rwa [(underLoop_digit b (by omega) c d (by omega) hd _ _ cs).1] at this) (by omega)
            exact ⟨.digit n c d cs v (isDigit_of c d (by omega) hd) (by omega) i1, i2⟩

theorem lowerC_eq (c : Char) (l u : Char) (hl : u.toNat + 32 = l.toNat) (h : lowerC c = l) : c = l ∨ c = u := by
  have e := lowerC_toNat c
  rw [h] at e
  split at e
  · exact Or.inr (Char.toNat_inj.1 (by omega))
  · exact Or.inl (Char.toNat_inj.1 (by omega))

/-- Prefixes of a base. -/
def prefixes : List (Char × Nat) := [('b', 2), ('B', 2), ('o', 8), ('O', 8), ('x', 16), ('X', 16)]

theorem prefix_cases (c : Char) : (∃ b, (c, b) ∈ prefixes) ∨ (lowerC c ≠ 'b' ∧ lowerC c ≠ 'o' ∧ lowerC c ≠ 'x') := by
  by_cases h1 : lowerC c = 'b'
  · rcases lowerC_eq c 'b' 'B' (by decide) h1 with rfl | rfl
    · exact Or.inl ⟨2, by decide⟩
    · exact Or.inl ⟨2, by decide⟩
  · by_cases h2 : lowerC c = 'o'
    · rcases lowerC_eq c 'o' 'O' (by decide) h2 with rfl | rfl
      · exact Or.inl ⟨8, by decide⟩
      · exact Or.inl ⟨8, by decide⟩
    · by_cases h3 : lowerC c = 'x'
      · rcases lowerC_eq c 'x' 'X' (by decide) h3 with rfl | rfl
        · exact Or.inl ⟨16, by decide⟩
        · exact Or.inl ⟨16, by decide⟩
      · exact Or.inr ⟨h1, h2, h3⟩

theorem prefix_base (c : Char) (b : Nat) (h : (c, b) ∈ prefixes) : (b = 2 ∨ b = 8 ∨ b = 10 ∨ b = 16)
    ∧ (∀ d r, basePrefix ('0' :: c :: d :: r) = (b, d :: r)) ∧ (∀ r, underscoreOK ('0' :: c :: r) = underLoop (decide (b = 16)) true false r)
    ∧ Flags.digitVal c ≠ none ∧ (∀ d, Flags.digitVal c = some d → 8 ≤ d) ∧ c ≠ '_' := by
  simp only [prefixes, List.mem_cons, Prod.mk.injEq, List.not_mem_nil, or_false] at h
  rcases h with ⟨rfl, rfl⟩ | ⟨rfl, rfl⟩ | ⟨rfl, rfl⟩ | ⟨rfl, rfl⟩ | ⟨rfl, rfl⟩ | ⟨rfl, rfl⟩ <;>
    exact ⟨by decide, fun _ _ => rfl, fun _ => rfl, by decide, by intro d hd; (have : _ = some _ := hd); simp [Flags.digitVal, lowerC] at hd; subst hd; decide, by decide⟩

theorem underLoop_zero (r : Text) (dig und : Bool) : underLoop false dig und ('0' :: r) = underLoop false true false r := by
  rw [underLoop, if_pos (Or.inl (by decide))]

theorem underscoreOK_octal (c : Char) (r : Text) (h : lowerC c ≠ 'b' ∧ lowerC c ≠ 'o' ∧ lowerC c ≠ 'x') :
    underscoreOK ('0' :: c :: r) = underLoop false true false (c :: r) := by
  simp only [underscoreOK, h.1, h.2.1, h.2.2, or_self, if_false]
  exact underLoop_zero _ _ _

/-- In octal numerals nothing else than digits and underscores occurs. -/
theorem underscoreOK_octal' (r : Text) (h : More 8 0 r v) : '_' ∈ r → underscoreOK ('0' :: r) = underLoop false true false r := by
  intro hm
  cases r with
  | nil => simp at hm
  | cons c r =>
    rcases prefix_cases c with ⟨b, hb⟩ | hn
    · obtain ⟨-, -, -, -, h5, h6⟩ := prefix_base c b hb
      cases h with
      | digit n c d t v g1 g2 g3 => have := h5 d (digitVal_of c d (by omega) g1); omega
      | under n c d t v g1 g2 g3 => exact absurd rfl h6
    · exact underscoreOK_octal c r hn

theorem basePrefix_octal (r : Text) (h : ∀ c d r', r = c :: d :: r' → lowerC c ≠ 'b' ∧ lowerC c ≠ 'o' ∧ lowerC c ≠ 'x') : basePrefix ('0' :: r) = (8, r) := by
  match r with
  | [] => rfl
  | [c] => rfl
  | c :: d :: r' =>
    obtain ⟨h1, h2, h3⟩ := h c d r' rfl
    simp [basePrefix, h1, h2, h3]

theorem basePrefix_decimal (c : Char) (t : Text) (h : c ≠ '0') : basePrefix (c :: t) = (10, c :: t) ∧ underscoreOK (c :: t) = underLoop false false false (c :: t) := by
  constructor
  · unfold basePrefix
    split
    · rename_i e; simp at e; exact absurd e.1 h
    · rename_i e; simp at e; exact absurd e.1 h
    · rfl
  · unfold underscoreOK
    split
    · rename_i e; simp at e; exact absurd e.1 h
    · rfl

theorem parseUint_of_literal (s : Text) (v : Nat) (h : Literal s v) (hv : v < 2 ^ 64) : parseUint s = (v, none) := by
  cases h with
  | decimal c d t v h1 h2 h3 h4 =>
    have hd := digitVal_of c d (by omega) h1
    obtain ⟨u1, u2⟩ := underLoop_digit 10 (by omega) c d (by omega) hd false false t
    have hc : c ≠ '0' := by
      rintro rfl
      have : some 0 = some d := hd
      simp at this; omega
    obtain ⟨b1, b2⟩ := basePrefix_decimal c t hc
    obtain ⟨d1, d2⟩ := digits_of_more 10 (by omega) d t v h4 hv
    have hm := more_mono 10 (by omega) _ _ _ h4
    unfold parseUint
    rw [if_neg (by simp), b1]
    have e : digits 10 0 (c :: t) = (v, none) := by
      rw [digits, if_neg u2, hd]
      simp only
      rw [if_neg (by omega), if_neg (by omega), Nat.zero_mul, Nat.zero_add, d1]
    simp only [e]
    rw [if_neg]
    rintro ⟨-, h⟩
    rw [b2] at h
    have u1' : underLoop false false false (c :: t) = underLoop false true false t := u1
    have d2' : underLoop false true false t = true := d2
    rw [u1', d2'] at h
    simp at h
  | octal t v h4 =>
    obtain ⟨d1, d2⟩ := digits_of_more 8 (by omega) 0 t v h4 hv
    have hb : basePrefix ('0' :: t) = (8, t) := by
      refine basePrefix_octal t (fun c d r' e => ?_)
      rcases prefix_cases c with ⟨b, hb⟩ | hn
      · subst e
        obtain ⟨-, -, -, -, h5, h6⟩ := prefix_base c b hb
        cases h4 with
        | digit n c d t v g1 g2 g3 => have := h5 _ (digitVal_of _ _ (by omega) g1); omega
        | under n c d t v g1 g2 g3 => exact absurd rfl h6
      · exact hn
    unfold parseUint
    rw [if_neg (by simp), hb]
    simp only [d1]
    rw [if_neg]
    rintro ⟨h, h'⟩
    rw [underscoreOK_octal' t h4 h] at h'
    have d2' : underLoop false true false t = true := d2
    rw [d2'] at h'
    simp at h'
  | prefixed c b t v h1 h2 h4 =>
    obtain ⟨p1, p2, p3, -, -, -⟩ := prefix_base c b h1
    obtain ⟨d1, d2⟩ := digits_of_more b p1 0 t v h4 hv
    cases t with
    | nil => exact absurd rfl h2
    | cons x t =>
      unfold parseUint
      rw [if_neg (by simp), p2 x t]
      simp only [d1]
      rw [if_neg]
      rintro ⟨-, h⟩
      rw [p3, d2] at h
      simp at h

theorem literal_of_parseUint (s : Text) (v : Nat) (h : parseUint s = (v, none)) : Literal s v ∧ v < 2 ^ 64 := by
  unfold parseUint at h
  cases s with
  | nil => simp at h
  | cons c t =>
    rw [if_neg (by simp)] at h
    -- digits and underscores of whatever base
    have key : ∀ b r, basePrefix (c :: t) = (b, r) → digits b 0 r = (v, none) ∧ ('_' ∈ r → underscoreOK (c :: t) = true) := by
      intro b r e
      rw [e] at h
      simp only at h
      cases hd : digits b 0 r with
      | mk n o =>
        rw [hd] at h
        cases o with
        | some e => simp at h
        | none =>
          simp only at h
          split at h
          · simp at h
          · rename_i hx
            simp only [Prod.mk.injEq, and_true] at h
            subst h
            refine ⟨rfl, fun hm => ?_⟩
            cases hu : underscoreOK (c :: t) with
            | true => rfl
            | false => exact absurd ⟨hm, hu⟩ hx
    clear h
    by_cases hc : c = '0'
    · subst hc
      by_cases hp : ∃ x y r b, t = x :: y :: r ∧ (x, b) ∈ prefixes
      · obtain ⟨x, y, r, b, rfl, hb⟩ := hp
        obtain ⟨p1, p2, p3, -, -, -⟩ := prefix_base x b hb
        obtain ⟨k1, k2⟩ := key b (y :: r) (p2 y r)
        obtain ⟨m1, m2⟩ := more_of_digits b p1 (y :: r) 0 v k1 (fun hm => by have := k2 hm; rwa [p3] at this) (by omega)
        exact ⟨.prefixed x b (y :: r) v hb (by simp) m1, m2⟩
      · have hb : basePrefix ('0' :: t) = (8, t) := by
          refine basePrefix_octal t (fun x y r e => ?_)
          rcases prefix_cases x with ⟨b, hb⟩ | hn
          · exact absurd ⟨x, y, r, b, e, hb⟩ hp
          · exact hn
        obtain ⟨k1, k2⟩ := key 8 t hb
        obtain ⟨m1, m2⟩ := more_of_digits 8 (by omega) t 0 v k1 (fun hm => by
          have := k2 hm
          cases t with
          | nil => simp at hm
          | cons x t =>
            rcases prefix_cases x with ⟨b, hxb⟩ | hn
            · cases t with
              | nil =>
                simp only [List.mem_singleton] at hm
                exact absurd hm.symm (prefix_base x b hxb).2.2.2.2.2
              | cons y t => exact absurd ⟨x, y, t, b, rfl, hxb⟩ hp
            · rw [underscoreOK_octal x t hn] at this
              exact this) (by omega)
        exact ⟨.octal t v m1, m2⟩
    · obtain ⟨b1, b2⟩ := basePrefix_decimal c t hc
      obtain ⟨k1, k2⟩ := key 10 (c :: t) b1
      rw [b2] at k2
      have hu : c ≠ '_' := by
        rintro rfl
        have := k2 (by simp)
        rw [underLoop, if_neg (underscore_no _)] at this
        simp at this
      rw [digits, if_neg hu] at k1
      cases hd : Flags.digitVal c with
      | none => rw [hd] at k1; simp at k1
      | some d =>
        rw [hd] at k1
        simp only at k1
        by_cases h1 : 10 ≤ d
        · rw [if_pos h1] at k1; simp at k1
        · rw [if_neg h1, if_neg (by omega), Nat.zero_mul, Nat.zero_add] at k1
          have hdig := isDigit_of c d (by omega) hd
          have h0 : 0 < d := by
            rcases Nat.eq_zero_or_pos d with rfl | h
            · unfold IsDigit at hdig
              simp at hdig
              exact absurd hdig.symm hc
            · exact h
          obtain ⟨m1, m2⟩ := more_of_digits 10 (by omega) t d v k1 (fun hm => by
            have := k2 (by simp [hm])
            have u := (underLoop_digit 10 (by omega) c d (by omega) hd false false t).1
            have u' : underLoop false false false (c :: t) = underLoop false true false t := u
            rw [u'] at this
            exact this) (by omega)
          exact ⟨.decimal c d t v hdig h0 (by omega) m1, m2⟩

theorem literal_sign (t : Text) (v : Nat) (h : Literal t v) : t ≠ [] ∧ t.head? ≠ some '+' ∧ t.head? ≠ some '-' := by
  cases h with
  | decimal c d t v h1 h2 h3 h4 =>
    have hd := digitVal_of c d (by omega) h1
    refine ⟨by simp, ?_, ?_⟩ <;> (simp only [List.head?_cons, ne_eq, Option.some.injEq]; rintro rfl; exact absurd hd (by simp [Flags.digitVal, lowerC]))
  | octal t v h4 => exact ⟨by simp, by simp, by simp⟩
  | prefixed c b t v h1 h2 h4 => exact ⟨by simp, by simp, by simp⟩

/-- `strconv.ParseInt` reads exactly the numbers of Go's source text, with a sign or without, that have 64 bits. -/
theorem parseInt_iff (s : Text) (i : Int) : parseInt s = (i, none) ↔ IntLiteral s i ∧ -2 ^ 63 ≤ i ∧ i < 2 ^ 63 := by
  constructor
  · intro h
    unfold parseInt at h
    by_cases h0 : s = []
    · rw [if_pos h0] at h; simp at h
    · rw [if_neg h0] at h
      simp only at h
      generalize hr : (if s.head? = some '+' ∨ s.head? = some '-' then s.tail else s) = r at h
      cases hu : parseUint r with
      | mk u e =>
        rw [hu] at h
        cases e with
        | some e =>
          cases e
          · simp at h
          · simp only at h
            split at h
            · simp at h
            · split at h <;> simp at h
        | none =>
          simp only at h
          obtain ⟨l1, l2⟩ := literal_of_parseUint r u hu
          by_cases hm : s.head? = some '-'
          · rw [if_pos (Or.inr hm)] at hr
            have hs : s = '-' :: r := by
              cases s with
              | nil => exact absurd rfl h0
              | cons x s => simp at hm hr; rw [hm, hr]
            simp only [hm, not_true_eq_false, false_and, if_false, true_and, if_true] at h
            split at h
            · simp at h
            · simp only [Prod.mk.injEq, and_true] at h
              subst h hs
              exact ⟨.minus r u l1, by omega, by omega⟩
          · simp only [hm, not_false_eq_true, true_and, false_and, if_false] at h
            split at h
            · simp at h
            · simp only [Prod.mk.injEq, and_true] at h
              subst h
              refine ⟨?_, by omega, by omega⟩
              by_cases hp : s.head? = some '+'
              · rw [if_pos (Or.inl hp)] at hr
                have hs : s = '+' :: r := by
                  cases s with
                  | nil => exact absurd rfl h0
                  | cons x s => simp at hp hr; rw [hp, hr]
                subst hs
                exact .plus r u l1
              · rw [if_neg (by simp [hp, hm])] at hr
                subst hr
                exact .bare s u l1
  · rintro ⟨h, h1, h2⟩
    cases h with
    | bare t v h =>
      obtain ⟨s1, s2, s3⟩ := literal_sign _ _ h
      have hu := parseUint_of_literal _ v h (by omega)
      unfold parseInt
      rw [if_neg s1]
      simp only [s2, s3, or_self, if_false, hu, not_false_eq_true, true_and, false_and]
      rw [if_neg (by omega)]
    | plus t v h =>
      have hu := parseUint_of_literal _ v h (by omega)
      unfold parseInt
      rw [if_neg (by simp)]
      simp only [List.head?_cons, List.tail_cons, true_or, if_true, hu, show ¬ some '+' = some '-' by decide, not_false_eq_true, true_and, false_and, if_false]
      rw [if_neg (by omega)]
    | minus t v h =>
      have hu := parseUint_of_literal _ v h (by omega)
      unfold parseInt
      rw [if_neg (by simp)]
      simp only [List.head?_cons, List.tail_cons, or_true, if_true, hu]
      rw [if_neg (by simp), if_neg (by omega)]

end TcpInfo

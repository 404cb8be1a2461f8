import Verif.Lemmas.Flags
import Verif.Props.Main
/-!
# Properties of the command line and the environment (C112, C113)

`WellNamed` is met by every program that starts: `flag.Var` panics if a flag is defined twice, and if its name begins with a dash or contains `=`.
-/

namespace TcpInfo
open Flags Spec

/-- The flags have different names, and names that can be written. -/
def Spec.WellNamed (F : FlagSet) : Prop := (F.flags.map (·.1)).Nodup ∧ GoodNames F

/-- Libraries with a flag each that is boolean and that is not; lists are split at commas. -/
def Spec.exLibs : Libs :=
  { flags := [("anonymize.ip".toList, false), ("version".toList, true)]
    accepts := fun n v => if n = "anonymize.ip".toList then v ∈ ["none".toList, "netblock".toList] else (parseBool v).isSome
    items := fun v => v.foldr (fun c acc => if c = ',' then [] :: acc else match acc with | [] => [[c]] | x :: acc => (c :: x) :: acc) [[]] }

theorem exLibs_wellNamed : WellNamed (mainFlags exLibs) := by
  refine ⟨by decide, ?_⟩
  intro f hf
  revert f hf
  decide

/-- An environment with some variables. -/
def Spec.envOf (l : List (String × String)) : Text → Option Text := fun n => (l.find? (fun p => p.1.toList = n)).map (·.2.toList)

/-- C112 (partial: the options stand in front, see `C112_violated`). If the command line consists of valid options, in any order, number and spelling,
then the program starts with the settings they stand for: the last value of an option counts, all values of the two lists; what is not given comes from the
environment, otherwise it has its default. Missing: options behind an argument that is no option. -/
theorem C112_options_partial (L : Libs) (hL : WellNamed (mainFlags L)) (opts : List Opt) (hv : ∀ o ∈ opts, o.Valid (mainFlags L)) (tail : List Text)
    (ht : EndsOptions tail) (env : Text → Option Text) :
    mainStart L (argsOf opts ++ tail) env = .go (settingsOf L.items opts env) := by
  obtain ⟨rest, hr⟩ := parse_end (mainFlags L) tail ht
  have hp := parse_valids (mainFlags L) hL.2 opts hv tail
  rw [hr, List.append_nil] at hp
  unfold mainStart
  rw [hp]
  simp only
  rw [settings_main L hL.1]

/-- C112, complete: every command line is a list of valid options followed by something at which parsing stops. Either this is the end, the terminator or
an argument that is no option, and the program starts with the settings; or the option there is wrong, and the program ends with status 2 (0 if help was
asked for) before it has done anything. -/
theorem C112_every (L : Libs) (hL : WellNamed (mainFlags L)) (args : List Text) (env : Text → Option Text) :
    ∃ (opts : List Opt) (tail : List Text), args = argsOf opts ++ tail ∧ (∀ o ∈ opts, o.Valid (mainFlags L))
      ∧ ((EndsOptions tail ∧ mainStart L args env = .go (settingsOf L.items opts env))
        ∨ ∃ st, Refused (mainFlags L) tail st ∧ mainStart L args env = .exit st) := by
  obtain ⟨opts, tail, h1, h2, h3⟩ := parse_every (mainFlags L) args.length args (Nat.le_refl _)
  refine ⟨opts, tail, h1, h2, ?_⟩
  rcases h3 with ⟨t1, -⟩ | ⟨st, t1, t2⟩
  · exact Or.inl ⟨t1, by rw [h1]; exact C112_options_partial L hL opts h2 tail t1 env⟩
  · refine Or.inr ⟨st, t1, ?_⟩
    unfold mainStart
    rw [t2]

/-- C112. Whatever the arguments are, the program does not start with a wrong option among those that are read: if it starts, all options in front of the
first argument that is no option were valid. In particular a number for `-reps` that cannot be read ends the program with status 2. -/
theorem C112_refused (L : Libs) (hL : WellNamed (mainFlags L)) (opts : List Opt) (hv : ∀ o ∈ opts, o.Valid (mainFlags L)) (o : Opt) (k : Flags.Kind)
    (hk : kindOf (mainFlags L) o.name = some k) (hs : setOK (mainFlags L) o.name k o.value = false)
    (hsp : match o.spelling with | .joined => True | .apart => k.isBool = false | .alone => False) (rest : List Text) (env : Text → Option Text) :
    mainStart L (argsOf opts ++ o.args ++ rest) env = .exit 2 := by
  have hp := parse_valids (mainFlags L) hL.2 opts hv (o.args ++ rest)
  obtain ⟨c1, c2⟩ := classify_opt (goodName_of_kind hL.2 hk)
  have ho : parse (mainFlags L) none (o.args ++ rest) = ([], .exit 2) := by
    cases hsp' : o.spelling with
    | joined =>
      simp only [Opt.args, hsp', List.singleton_append, parse, c2 o.value, hk, hs, assign]
      rfl
    | apart =>
      rw [hsp'] at hsp
      simp only at hsp
      simp only [Opt.args, hsp', List.cons_append, List.nil_append, parse, c1, hk, hsp, Bool.false_eq_true, if_false, hs, assign]
    | alone => rw [hsp'] at hsp; exact hsp.elim
  unfold mainStart
  rw [List.append_assoc, hp, ho]

/-- C112. `-reps`: a decimal numeral stands for its number. -/
theorem C112_number (L : Libs) (hL : WellNamed (mainFlags L)) (opts : List Opt) (hv : ∀ o ∈ opts, o.Valid (mainFlags L)) (tail : List Text)
    (ht : EndsOptions tail) (env : Text → Option Text) (i : Int) (h1 : -2 ^ 63 ≤ i) (h2 : i < 2 ^ 63)
    (he : ∃ s, effective opts env "reps" "REPS" = some s ∧ Decimal s i) :
    ∃ S, mainStart L (argsOf opts ++ tail) env = .go S ∧ S.reps = i := by
  refine ⟨_, C112_options_partial L hL opts hv tail ht env, ?_⟩
  obtain ⟨s, hs, hd⟩ := he
  rw [Decimal] at hd
  simp only [settingsOf, hs, Option.map_some, Option.getD_some]
  rw [hd, parseInt_toString i h1 h2]

/-- C112. `-reps`: every whole number as in Go's source text (decimal, octal, binary, hexadecimal, with underscores), with a sign or without, stands for its
number. -/
theorem C112_literal (L : Libs) (hL : WellNamed (mainFlags L)) (opts : List Opt) (hv : ∀ o ∈ opts, o.Valid (mainFlags L)) (tail : List Text)
    (ht : EndsOptions tail) (env : Text → Option Text) (i : Int) (h1 : -2 ^ 63 ≤ i) (h2 : i < 2 ^ 63)
    (he : ∃ s, effective opts env "reps" "REPS" = some s ∧ IntLiteral s i) :
    ∃ S, mainStart L (argsOf opts ++ tail) env = .go S ∧ S.reps = i := by
  refine ⟨_, C112_options_partial L hL opts hv tail ht env, ?_⟩
  obtain ⟨s, hs, hd⟩ := he
  simp only [settingsOf, hs, Option.map_some, Option.getD_some]
  rw [(parseInt_iff s i).2 ⟨hd, h1, h2⟩]

/-- C112. Which values `-reps` accepts: exactly the whole numbers of 64 bits as in Go's source text. -/
theorem C112_numbers (L : Libs) (v : Text) (d : Bool) (sp : Spelling) (hsp : sp ≠ .alone) :
    Opt.Valid (mainFlags L) ⟨"reps".toList, v, d, sp⟩ ↔ ∃ i, IntLiteral v i ∧ -2 ^ 63 ≤ i ∧ i < 2 ^ 63 := by
  have hk : kindOf (mainFlags L) "reps".toList = some .int := rfl
  constructor
  · rintro ⟨k, h1, h2, -⟩
    have h1 : kindOf (mainFlags L) "reps".toList = some k := h1
    rw [hk] at h1
    injection h1 with h1
    subst h1
    have h2 : (parseInt v).2.isNone = true := h2
    refine ⟨(parseInt v).1, (parseInt_iff v _).1 ?_⟩
    rw [Option.isNone_iff_eq_none] at h2
    rw [← h2]
  · rintro ⟨i, h⟩
    have e := (parseInt_iff v i).2 h
    refine ⟨.int, hk, by simp only [setOK, e]; rfl, ?_⟩
    cases sp with
    | joined => trivial
    | apart => rfl
    | alone => exact absurd rfl hsp

/-- C112. `-trace`: there is a trace exactly if the value that counts is one of those for "on". -/
theorem C112_switch (L : Libs) (hL : WellNamed (mainFlags L)) (opts : List Opt) (hv : ∀ o ∈ opts, o.Valid (mainFlags L)) (tail : List Text)
    (ht : EndsOptions tail) (env : Text → Option Text) :
    ∃ S, mainStart L (argsOf opts ++ tail) env = .go S ∧ (S.trace = true ↔ ∃ v ∈ onTexts, effective opts env "trace" "TRACE" = some v) := by
  refine ⟨_, C112_options_partial L hL opts hv tail ht env, ?_⟩
  simp only [settingsOf]
  cases effective opts env "trace" "TRACE" with
  | none => simp
  | some v =>
    simp only [Option.bind_some, Option.some.injEq]
    have e : (∃ w ∈ onTexts, v = w) ↔ v ∈ onTexts := ⟨by rintro ⟨w, h, rfl⟩; exact h, fun h => ⟨v, h, rfl⟩⟩
    rw [e]
    have e' : v ∈ onTexts ↔ v ∈ ["1".toList, "t".toList, "T".toList, "TRUE".toList, "true".toList, "True".toList] := by
      simp only [onTexts, List.map_cons, List.map_nil, List.mem_cons, List.not_mem_nil, or_false]
      constructor
      · rintro (h | h | h | h | h | h) <;> simp only [h, true_or, or_true]
      · rintro (h | h | h | h | h | h) <;> simp only [h, true_or, or_true]
    rw [e']
    unfold parseBool
    by_cases h : v ∈ ["1".toList, "t".toList, "T".toList, "TRUE".toList, "true".toList, "True".toList]
    · rw [if_pos h]; exact ⟨fun _ => h, fun _ => rfl⟩
    · rw [if_neg h]
      constructor
      · intro h'; split at h' <;> simp at h'
      · intro h'; exact absurd h' h

/-- C112. Which values `-trace=` accepts. -/
theorem C112_switches (L : Libs) (v : Text) (d : Bool) : Opt.Valid (mainFlags L) ⟨"trace".toList, v, d, .joined⟩ ↔ v ∈ onTexts ++ offTexts := by
  have hk : kindOf (mainFlags L) "trace".toList = some .bool := rfl
  have e : v ∈ onTexts ++ offTexts ↔ (parseBool v).isSome = true := by
    constructor
    · intro h
      simp only [onTexts, offTexts, List.map_cons, List.map_nil, List.cons_append, List.nil_append, List.mem_cons, List.not_mem_nil, or_false] at h
      rcases h with rfl | rfl | rfl | rfl | rfl | rfl | rfl | rfl | rfl | rfl | rfl | rfl <;> decide
    · intro h
      unfold parseBool at h
      split at h
      · rename_i h1
        simp only [List.mem_cons, List.not_mem_nil, or_false] at h1
        rcases h1 with rfl | rfl | rfl | rfl | rfl | rfl <;> decide
      · split at h
        · rename_i h1
          simp only [List.mem_cons, List.not_mem_nil, or_false] at h1
          rcases h1 with rfl | rfl | rfl | rfl | rfl | rfl <;> decide
        · simp at h
  rw [e]
  constructor
  · rintro ⟨k, h1, h2, -⟩
    have h1 : kindOf (mainFlags L) "trace".toList = some k := h1
    rw [hk] at h1
    injection h1 with h1
    subst h1
    exact h2
  · intro h
    exact ⟨.bool, hk, h, trivial⟩

-- such numbers, and texts that are none
example : IntLiteral "0x_1F".toList 31 := .bare _ _ (.prefixed 'x' 16 _ _ (by decide) (by decide)
  (.under 0 '1' 1 _ _ (Or.inl rfl) (by decide) (.digit 1 'F' 15 _ _ (Or.inr rfl) (by decide) (.nil 31))))
example : IntLiteral "-1_000".toList (-1000) := .minus _ _ (.decimal '1' 1 _ _ (Or.inl rfl) (by decide) (by decide)
  (.under 1 '0' 0 _ _ (Or.inl rfl) (by decide) (.digit 10 '0' 0 _ _ (Or.inl rfl) (by decide) (.digit 100 '0' 0 _ _ (Or.inl rfl) (by decide) (.nil 1000)))))
example : ¬ ∃ i, IntLiteral "1e3".toList i ∧ -2 ^ 63 ≤ i ∧ i < 2 ^ 63 := by
  rintro ⟨i, h⟩
  have := (parseInt_iff _ i).2 h
  have e : parseInt "1e3".toList = (0, some .syntax) := by decide
  rw [e] at this
  simp at this
example : (["010", "0o10", "0b11", "0_7", "+5", "00", "08", "0x", "1__0", "_1", "1_", "0b_", "9223372036854775808"].map (fun s => parseInt s.toList))
    = [(8, none), (8, none), (3, none), (7, none), (5, none), (0, none), (0, some .syntax), (0, some .syntax), (0, some .syntax), (0, some .syntax), (0, some .syntax),
       (0, some .syntax), (9223372036854775807, some .range)] := by decide +kernel

/-- The option `-reps=i` with any number of 64 bits is valid. -/
theorem reps_valid (L : Libs) (i : Int) (h1 : -2 ^ 63 ≤ i) (h2 : i < 2 ^ 63) (d : Bool) (sp : Spelling) (hsp : sp ≠ .alone) :
    Opt.Valid (mainFlags L) ⟨"reps".toList, (toString i).toList, d, sp⟩ := by
  refine ⟨.int, rfl, by simp only [setOK, parseInt_toString i h1 h2]; rfl, ?_⟩
  cases sp with
  | joined => trivial
  | apart => rfl
  | alone => exact absurd rfl hsp

/-- C112, together with C67: which messages are left out, as a function of the command line and the environment. -/
theorem C112_excluded (L : Libs) (hL : WellNamed (mainFlags L)) (opts : List Opt) (hv : ∀ o ∈ opts, o.Valid (mainFlags L)) (tail : List Text)
    (ht : EndsOptions tail) (env : Text → Option Text) (msg : NetlinkMessage) :
    ∃ S, mainStart L (argsOf opts ++ tail) env = .go S ∧
      (makeArchivalRecord msg (some S.exclude) = .ok none ↔
        msg.header.type = 20 ∧ ∃ (m : DiagMsg) (rest : Bytes), msg.data = m.wire ++ rest
          ∧ (LocalField m.src.val ∨ LocalField m.dst.val
            ∨ (∃ v ∈ allValues opts env "exclude-srcport" "EXCLUDE_SRCPORT", ∃ s ∈ L.items v, ∃ i, IntText s i ∧ -32768 ≤ i ∧ i ≤ 32767
                ∧ (m.sport.toNat : Int) = i % 65536)
            ∨ ∃ v ∈ allValues opts env "exclude-dstip" "EXCLUDE_DSTIP", ∃ s ∈ L.items v, DstText s m)) := by
  refine ⟨_, C112_options_partial L hL opts hv tail ht env, ?_⟩
  unfold Settings.exclude
  rw [C67_exact]
  simp only [settingsOf, List.mem_flatMap]
  constructor
  · rintro ⟨h1, m, rest, h2, h3⟩
    refine ⟨h1, m, rest, h2, ?_⟩
    rcases h3 with h | h | ⟨s, ⟨v, hv, hs⟩, h⟩ | ⟨s, ⟨v, hv, hs⟩, h⟩
    · exact Or.inl h
    · exact Or.inr (Or.inl h)
    · exact Or.inr (Or.inr (Or.inl ⟨v, hv, s, hs, h⟩))
    · exact Or.inr (Or.inr (Or.inr ⟨v, hv, s, hs, h⟩))
  · rintro ⟨h1, m, rest, h2, h3⟩
    refine ⟨h1, m, rest, h2, ?_⟩
    rcases h3 with h | h | ⟨v, hv, s, hs, h⟩ | ⟨v, hv, s, hs, h⟩
    · exact Or.inl h
    · exact Or.inr (Or.inl h)
    · exact Or.inr (Or.inr (Or.inl ⟨s, ⟨v, hv, hs⟩, h⟩))
    · exact Or.inr (Or.inr (Or.inr ⟨s, ⟨v, hv, hs⟩, h⟩))

/-- C112 violated: an argument that is no option makes all options behind it ineffective, whatever they are, and the program starts without a word. -/
theorem C112_violated (L : Libs) (hL : WellNamed (mainFlags L)) (opts : List Opt) (hv : ∀ o ∈ opts, o.Valid (mainFlags L)) (a : Text) (ha : Plain a)
    (rest : List Text) (env : Text → Option Text) :
    mainStart L (argsOf opts ++ a :: rest) env = mainStart L (argsOf opts) env := by
  have h := C112_options_partial L hL opts hv [] (Or.inl rfl) env
  rw [List.append_nil] at h
  rw [h, C112_options_partial L hL opts hv (a :: rest) (Or.inr (Or.inr ⟨a, rest, rfl, ha⟩)) env]

/-- C112 violated: `tcp-info -trace false -exclude-srcport 80` traces, and excludes no port; the flags written `-trace=false` do what they say. -/
theorem C112_violated_bool : ∃ S T : Settings,
    mainStart exLibs ["-trace".toList, "false".toList, "-exclude-srcport".toList, "80".toList] (envOf []) = .go S ∧ S.trace = true ∧ S.srcPorts = []
    ∧ mainStart exLibs ["-trace=false".toList, "-exclude-srcport".toList, "80".toList] (envOf []) = .go T ∧ T.trace = false ∧ T.srcPorts = ["80".toList] :=
  ⟨{ defaults with trace := true }, { defaults with srcPorts := ["80".toList] }, by decide +kernel, rfl, rfl, by decide +kernel, rfl, rfl⟩

-- non-vacuity: five options in several spellings, one of them twice; the variables of the environment count for the one that is not given
def Spec.exOpts : List Opt :=
  [⟨"reps".toList, "5".toList, false, .joined⟩, ⟨"exclude-srcport".toList, "80,443".toList, true, .apart⟩, ⟨"trace".toList, "true".toList, false, .alone⟩,
   ⟨"exclude-srcport".toList, "22".toList, false, .joined⟩, ⟨"reps".toList, "1000".toList, true, .joined⟩]

theorem exOpts_valid : ∀ o ∈ exOpts, o.Valid (mainFlags exLibs) := by
  intro o ho
  simp only [exOpts, List.mem_cons, List.not_mem_nil, or_false] at ho
  rcases ho with rfl | rfl | rfl | rfl | rfl
  · exact ⟨.int, by decide, by decide, trivial⟩
  · exact ⟨.list, by decide, by decide, rfl⟩
  · exact ⟨.bool, by decide, by decide, rfl, rfl⟩
  · exact ⟨.list, by decide, by decide, trivial⟩
  · exact ⟨.int, by decide, by decide, trivial⟩

example : argsOf exOpts = ["-reps=5", "--exclude-srcport", "80,443", "-trace", "-exclude-srcport=22", "--reps=1000"].map String.toList := by decide

example : mainStart exLibs (argsOf exOpts) (envOf [("OUTPUT", "/data"), ("REPS", "7")])
    = .go { reps := 1000, trace := true, output := "/data".toList, srcPorts := ["80".toList, "443".toList, "22".toList], dstIPs := [], socket := [] } := by decide +kernel

-- refused command lines
example : mainStart exLibs ["-reps=1e3".toList] (envOf []) = .exit 2 ∧ mainStart exLibs ["-rep".toList, "3".toList] (envOf []) = .exit 2
    ∧ mainStart exLibs ["-trace".toList, "-reps".toList] (envOf []) = .exit 2 ∧ mainStart exLibs ["---reps=3".toList] (envOf []) = .exit 2
    ∧ mainStart exLibs ["-help".toList] (envOf []) = .exit 0 := by decide +kernel

/-! ## C113: the environment -/

/-- C113 (partial: the value is one that the option accepts, see `C113_violated`). A variable of the environment counts as the option it stands for would,
if that option is not on the command line. Missing: values that are not accepted. -/
theorem C113_as_option_partial (L : Libs) (hL : WellNamed (mainFlags L)) (opts : List Opt) (hv : ∀ o ∈ opts, o.Valid (mainFlags L)) (tail : List Text)
    (ht : EndsOptions tail) (env : Text → Option Text) (o : Opt) (ho : o.Valid (mainFlags L)) (hno : ∀ p ∈ opts, p.name ≠ o.name)
    (he : env (shellName o.name) = some o.value) :
    mainStart L (argsOf opts ++ tail) env = mainStart L (argsOf (o :: opts) ++ tail) env := by
  have hv' : ∀ p ∈ o :: opts, p.Valid (mainFlags L) := by
    intro p hp
    rcases List.mem_cons.mp hp with rfl | hp
    · exact ho
    · exact hv p hp
  rw [C112_options_partial L hL opts hv tail ht env, C112_options_partial L hL (o :: opts) hv' tail ht env]
  have hg : ∀ name : String, given (o :: opts) name = if o.name = name.toList then [o.value] else given opts name := by
    intro name
    unfold given
    by_cases h : o.name = name.toList
    · have : opts.filter (fun p => p.name = name.toList) = [] := by
        rw [List.filter_eq_nil_iff]
        intro p hp e
        exact hno p hp (by rw [h]; simpa using e)
      rw [if_pos h, List.filter_cons_of_pos (by simpa using h), this]; rfl
    · rw [if_neg h, List.filter_cons_of_neg (by simpa using h)]
  have hg0 : ∀ name : String, o.name = name.toList → given opts name = [] := by
    intro name h
    unfold given
    have : opts.filter (fun p => p.name = name.toList) = [] := by
      rw [List.filter_eq_nil_iff]
      intro p hp e
      exact hno p hp (by rw [h]; simpa using e)
    rw [this]; rfl
  have he1 : ∀ name var : String, shellName name.toList = var.toList → effective (o :: opts) env name var = effective opts env name var := by
    intro name var hs
    unfold effective
    rw [hg]
    by_cases h : o.name = name.toList
    · rw [if_pos h, hg0 name h, ← hs, ← h, he]; rfl
    · rw [if_neg h]
  have he2 : ∀ name var : String, shellName name.toList = var.toList → allValues (o :: opts) env name var = allValues opts env name var := by
    intro name var hs
    unfold allValues
    rw [hg]
    by_cases h : o.name = name.toList
    · rw [if_pos h, hg0 name h, ← hs, ← h, he]; simp
    · rw [if_neg h]
  unfold settingsOf
  rw [he1 "reps" "REPS" (by decide), he1 "trace" "TRACE" (by decide), he1 "output" "OUTPUT" (by decide),
    he2 "exclude-srcport" "EXCLUDE_SRCPORT" (by decide), he2 "exclude-dstip" "EXCLUDE_DSTIP" (by decide),
    he1 "tcpinfo.eventsocket" "TCPINFO_EVENTSOCKET" (by decide)]

/-- C113. Nothing else of the environment plays a part: two environments that agree on the variables of the flags that are not given make the program start
alike. In particular a variable is ignored if its option is on the command line. For all command lines. -/
theorem C113_only (L : Libs) (args : List Text) (env env' : Text → Option Text)
    (h : ∀ f ∈ (mainFlags L).flags, f.1 ∉ (parse (mainFlags L) none args).1.map (·.1) → env (shellName f.1) = env' (shellName f.1)) :
    mainStart L args env = mainStart L args env' := by
  unfold mainStart
  have : fromEnv (mainFlags L) env (parse (mainFlags L) none args).1 = fromEnv (mainFlags L) env' (parse (mainFlags L) none args).1 := by
    unfold fromEnv
    exact filterMap_congr_mem _ _ _ (fun f hf => by
      split
      · rfl
      · rename_i hn; rw [h f hf hn])
  generalize parse (mainFlags L) none args = p at this ⊢
  obtain ⟨gv, out⟩ := p
  cases out with
  | exit n => rfl
  | done r => simp only at this ⊢; rw [this]

/-- C113 violated: for a value of `REPS` that is no number the program starts as if nothing had been said, and polls without end; on the command line the
same value ends the program. For all such values and all command lines of valid options without `-reps`. -/
theorem C113_violated (L : Libs) (hL : WellNamed (mainFlags L)) (opts : List Opt) (hv : ∀ o ∈ opts, o.Valid (mainFlags L)) (hno : given opts "reps" = [])
    (env : Text → Option Text) (v : Text) (he : env "REPS".toList = some v) (hb : (parseInt v).2 = some .syntax) :
    (∃ S, mainStart L (argsOf opts) env = .go S ∧ S.reps = 0)
    ∧ mainStart L (argsOf opts ++ ["-reps".toList, v]) env = .exit 2 := by
  constructor
  · have h := C112_options_partial L hL opts hv [] (Or.inl rfl) env
    rw [List.append_nil] at h
    refine ⟨_, h, ?_⟩
    have h0 : (parseInt v).1 = 0 := by
      revert hb
      unfold parseInt
      split
      · intro _; rfl
      · dsimp only
        split
        · intro _; rfl
        · rename_i u e hne
          split
          · intro h; simp at h
          · split
            · intro h; simp at h
            · intro h
              simp only at h
              subst h
              exact absurd rfl e
    simp only [settingsOf, effective, hno, List.getLast?_nil, he, Option.map_some, Option.getD_some, h0]
  · have := C112_refused L hL opts hv ⟨"reps".toList, v, false, .apart⟩ .int rfl (by simp [setOK, hb]) rfl [] env
    rw [List.append_nil] at this
    exact this

/-- C113 violated: `TRACE=yes` is not understood, and there is no trace; `REPS=1e3` polls without end. -/
theorem C113_violated_values : mainStart exLibs [] (envOf [("REPS", "1e3"), ("TRACE", "yes")]) = .go defaults
    ∧ mainStart exLibs ["-reps=1e3".toList] (envOf []) = .exit 2 ∧ mainStart exLibs ["-trace=yes".toList] (envOf []) = .exit 2 := by decide +kernel

-- non-vacuity: a variable counts as the option; and not if the option is there
example : mainStart exLibs ["-trace".toList] (envOf [("EXCLUDE_DSTIP", "1.2.3.4,5.6.7.8"), ("TRACE", "false")])
    = .go { defaults with trace := true, dstIPs := ["1.2.3.4".toList, "5.6.7.8".toList] } := by decide +kernel
example : shellName "exclude-dstip".toList = "EXCLUDE_DSTIP".toList ∧ shellName "tcpinfo.eventsocket".toList = "TCPINFO_EVENTSOCKET".toList := by decide
example : (parseInt "1e3".toList).2 = some .syntax := by decide

/-- C113. The example client ends with status 1 if a variable has a value that is not accepted, and if it is told no socket; otherwise it uses the socket of
the last option, or of the environment. -/
theorem C113_client (L : Libs) (hL : WellNamed (clientFlags L)) (opts : List Opt) (hv : ∀ o ∈ opts, o.Valid (clientFlags L)) (tail : List Text)
    (ht : EndsOptions tail) (env : Text → Option Text) :
    ((∃ f ∈ (clientFlags L).flags, (∀ o ∈ opts, o.name ≠ f.1) ∧ ∃ v, env (shellName f.1) = some v ∧ setOK (clientFlags L) f.1 f.2 v = false) →
      clientStart L (argsOf opts ++ tail) env = .exit 1)
    ∧ ((effective opts env "tcpinfo.eventsocket" "TCPINFO_EVENTSOCKET").getD [] = [] → clientStart L (argsOf opts ++ tail) env = .exit 1)
    ∧ ((∀ f ∈ (clientFlags L).flags, (∀ o ∈ opts, o.name ≠ f.1) → ∀ v, env (shellName f.1) = some v → setOK (clientFlags L) f.1 f.2 v = true) →
      (effective opts env "tcpinfo.eventsocket" "TCPINFO_EVENTSOCKET").getD [] ≠ [] →
      ∃ S, clientStart L (argsOf opts ++ tail) env = .go S ∧ S.socket = (effective opts env "tcpinfo.eventsocket" "TCPINFO_EVENTSOCKET").getD []) := by
  obtain ⟨rest, hr⟩ := parse_end (clientFlags L) tail ht
  have hp := parse_valids (clientFlags L) hL.2 opts hv tail
  rw [hr, List.append_nil] at hp
  have hsock := effective_field (clientFlags L) hL.1 (·.socket) "tcpinfo.eventsocket" "TCPINFO_EVENTSOCKET" (fun v => v) (by simp [clientFlags]) (by decide)
    (socket_set (clientFlags L)) opts env defaults
  have h3 : ∀ x : Option Text, x.map (fun v => v) = x := by intro x; cases x <;> rfl
  rw [h3] at hsock
  have hd : defaults.socket = [] := rfl
  rw [hd] at hsock
  have hiff := envOK_iff (clientFlags L) hL.1 env opts
  unfold clientStart
  rw [hp]
  simp only [hsock]
  refine ⟨?_, ?_, ?_⟩
  · rintro ⟨f, hf, h1, v, h2, h4⟩
    rw [if_pos]
    cases hok : envOK (clientFlags L) env (opts.map (fun o => (o.name, o.value))) with
    | false => rfl
    | true => rw [hiff.mp hok f hf h1 v h2] at h4; exact absurd h4 (by decide)
  · intro h
    simp [h]
  · intro h1 h2
    rw [hiff.mpr h1, if_neg (by decide), if_neg h2]
    exact ⟨_, rfl, hsock⟩

-- non-vacuity
example : clientStart exLibs ["-tcpinfo.eventsocket=/s".toList] (envOf [("VERSION", "maybe")]) = .exit 1
    ∧ clientStart exLibs [] (envOf []) = .exit 1
    ∧ clientStart exLibs [] (envOf [("TCPINFO_EVENTSOCKET", "/s")]) = .go { defaults with socket := "/s".toList } := by decide +kernel

end TcpInfo

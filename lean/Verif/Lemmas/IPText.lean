import Verif.Model.IPText
/-!
# Lemmas on the textual form of addresses
-/

namespace TcpInfo

theorem scanNum_toDigits (val : Char → Option Nat) (b : Nat) (hb : 1 < b) (hv : ∀ d, d < b → val (Nat.digitChar d) = some d) (rest : List Char) :
    ∀ v, v < 0xFFFFFF → scanNum val b 0 (Nat.toDigits b v ++ rest) = scanNum val b v rest := by
  obtain ⟨big, hbig⟩ : ∃ n, n = 0xFFFFFF := ⟨_, rfl⟩
  intro v hlt
  rw [← hbig] at hlt
  have gen : ∀ v, v < big → ∀ r, scanNum val b 0 (Nat.toDigits b v ++ r) = scanNum val b v r := by
    intro v
    induction v using Nat.strongRecOn with
    | _ v ih =>
      intro hlt r
      by_cases h : v < b
      · rw [Nat.toDigits_of_lt_base h, List.singleton_append, scanNum, hv v h]
        simp only [Nat.zero_mul, Nat.zero_add]
        rw [← hbig, if_neg (by omega)]
      · have hdiv : v / b < v := Nat.div_lt_self (by omega) hb
        rw [Nat.toDigits_of_base_le hb (by omega), List.append_assoc, List.singleton_append, ih (v / b) hdiv (by omega), scanNum,
          hv _ (Nat.mod_lt _ (by omega))]
        have e : v / b * b + v % b = v := by rw [Nat.mul_comm]; exact Nat.div_add_mod v b
        simp only [e]
        rw [← hbig, if_neg (by omega)]
  exact gen v hlt rest

theorem scanNum_stop (val : Char → Option Nat) (b v : Nat) (rest : List Char) (h : ∀ c, rest.head? = some c → val c = none) :
    scanNum val b v rest = some (v, rest) := by
  cases rest with
  | nil => rfl
  | cons c r => rw [scanNum, h c rfl]

theorem toDigits_cons (b : Nat) (hb : 1 < b) : ∀ v, ∃ d r, d < b ∧ Nat.toDigits b v = Nat.digitChar d :: r := by
  intro v
  induction v using Nat.strongRecOn with
  | _ v ih =>
    by_cases h : v < b
    · exact ⟨v, [], h, Nat.toDigits_of_lt_base h⟩
    · obtain ⟨d, r, hd, e⟩ := ih (v / b) (Nat.div_lt_self (by omega) hb)
      exact ⟨d, r ++ [Nat.digitChar (v % b)], hd, by rw [Nat.toDigits_of_base_le hb (by omega), e]; rfl⟩

theorem toI_toDigits (val : Char → Option Nat) (b : Nat) (hb : 1 < b) (hv : ∀ d, d < b → val (Nat.digitChar d) = some d) (v : Nat)
    (hlt : v < 0xFFFFFF) (rest : List Char) (h : ∀ c, rest.head? = some c → val c = none) : toI val b (Nat.toDigits b v ++ rest) = some (v, rest) := by
  unfold toI
  rw [scanNum_toDigits val b hb hv rest v hlt, scanNum_stop val b v rest h]
  obtain ⟨d, r, hd, e⟩ := toDigits_cons b hb v
  simp [e, hv d hd]

theorem decVal_digit : ∀ d, d < 10 → decVal (Nat.digitChar d) = some d := by decide
theorem hexVal_digit : ∀ d, d < 16 → hexCharVal (Nat.digitChar d) = some d := by decide
theorem toI_hex (v : Nat) (h : v < 65536) (rest : List Char) (hr : ∀ c, rest.head? = some c → hexCharVal c = none) :
    toI hexCharVal 16 (Nat.toDigits 16 v ++ rest) = some (v, rest) := toI_toDigits _ 16 (by omega) hexVal_digit v (by omega) rest hr

theorem leading_zero : ∀ v, v < 256 → (Nat.toDigits 10 v).head? = some '0' → (Nat.toDigits 10 v).length = 1 := by decide +kernel

theorem octet_fmt (v : Nat) (h : v < 256) (rest : List Char) (hr : ∀ c, rest.head? = some c → decVal c = none) :
    octet (Nat.toDigits 10 v ++ rest) = some (v, rest) := by
  unfold octet
  rw [toI_toDigits _ 10 (by omega) decVal_digit v (by omega) rest hr]
  simp only
  rw [if_neg (by omega), if_neg]
  rintro ⟨h1, h2⟩
  obtain ⟨d, r, -, e⟩ := toDigits_cons 10 (by omega) v
  have : (Nat.toDigits 10 v).head? = some '0' := by rw [e] at h2 ⊢; exact h2
  have := leading_zero v h this
  simp [this] at h1

theorem parseIPv4_fmt (a b c d : UInt8) : parseIPv4 (fmtIPv4 [a, b, c, d]) = some (a.toNat, b.toNat, c.toNat, d.toNat) := by
  have hd : ∀ r : List Char, ∀ x, ('.' :: r).head? = some x → decVal x = none := by
    intro r x hx; simp at hx; subst hx; decide
  have hlt := fun x : UInt8 => x.toNat_lt
  unfold parseIPv4
  simp only [fmtIPv4]
  rw [octet_fmt _ (hlt a) _ (hd _)]
  simp only [dot, if_pos, Option.bind_eq_bind, Option.bind_some]
  rw [octet_fmt _ (hlt b) _ (hd _)]
  simp only [if_pos, Option.bind_some]
  rw [octet_fmt _ (hlt c) _ (hd _)]
  simp only [if_pos, Option.bind_some]
  have := octet_fmt _ (hlt d) [] (by simp)
  rw [List.append_nil] at this
  rw [this]
  simp

theorem digit_not_colon : ∀ d, d < 16 → Nat.digitChar d ≠ ':' ∧ Nat.digitChar d ≠ '.' := by decide

theorem joinHex_cons (v : Nat) (g : List Nat) : ∃ d r, d < 16 ∧ joinHex (v :: g) = Nat.digitChar d :: r := by
  obtain ⟨d, r, hd, e⟩ := toDigits_cons 16 (by omega) v
  cases g with
  | nil => exact ⟨d, r, hd, by rw [joinHex, e]⟩
  | cons w gs => exact ⟨d, r ++ ':' :: joinHex (w :: gs), hd, by rw [joinHex, e]; rfl; simp⟩

theorem colon_stop (r : List Char) : ∀ c, (':' :: r).head? = some c → hexCharVal c = none := by
  intro x hx; simp at hx; subst hx; decide

/-- One group and a colon. -/
theorem parse6Loop_group (n v : Nat) (hv : v < 65536) (c : Char) (hc : c ≠ ':') (r : List Char) (acc : List Nat) (ell : Option Nat) :
    parse6Loop (n + 1) (Nat.toDigits 16 v ++ ':' :: c :: r) acc ell = parse6Loop n (c :: r) (acc ++ [v]) ell := by
  rw [parse6Loop, toI_hex v hv _ (colon_stop _)]
  simp only
  rw [if_neg (by omega : ¬ v > 65535), if_neg (by decide : ¬ ':' = '.'), if_neg (by decide : ¬ ':' ≠ ':'), if_neg hc]

theorem parse6Loop_last (n v : Nat) (hv : v < 65536) (acc : List Nat) (ell : Option Nat) :
    parse6Loop (n + 1) (Nat.toDigits 16 v) acc ell = some (acc ++ [v], ell, []) := by
  have h := toI_hex v hv [] (by simp)
  rw [List.append_nil] at h
  rw [parse6Loop, h]
  simp only
  rw [if_neg (by omega : ¬ v > 65535)]

theorem parse6Loop_ellipsis (n v : Nat) (hv : v < 65536) (r : List Char) (acc : List Nat) :
    parse6Loop (n + 1) (Nat.toDigits 16 v ++ ':' :: ':' :: r) acc none
      = if r.isEmpty then some (acc ++ [v], some (acc.length + 1), []) else parse6Loop n r (acc ++ [v]) (some (acc.length + 1)) := by
  rw [parse6Loop, toI_hex v hv _ (colon_stop _)]
  simp only
  rw [if_neg (by omega : ¬ v > 65535), if_neg (by decide : ¬ ':' = '.'), if_neg (by decide : ¬ ':' ≠ ':'), if_pos trivial]
  simp

theorem parse6Loop_join : ∀ (g : List Nat) (n : Nat) (acc : List Nat) (ell : Option Nat), (∀ v ∈ g, v < 65536) → g ≠ [] → g.length ≤ n →
    parse6Loop n (joinHex g) acc ell = some (acc ++ g, ell, [])
  | [], _, _, _, _, hn, _ => absurd rfl hn
  | [v], n, acc, ell, hv, _, hl => by
    obtain ⟨m, rfl⟩ : ∃ m, n = m + 1 := ⟨n - 1, by simp at hl; omega⟩
    exact parse6Loop_last m v (hv v (by simp)) acc ell
  | v :: w :: gs, n, acc, ell, hv, _, hl => by
    obtain ⟨m, rfl⟩ : ∃ m, n = m + 1 := ⟨n - 1, by simp at hl; omega⟩
    have ih := parse6Loop_join (w :: gs) m (acc ++ [v]) ell (fun x hx => hv x (List.mem_cons_of_mem _ hx)) (by simp) (by simp at hl ⊢; omega)
    obtain ⟨d, r, hd, e⟩ := joinHex_cons w gs
    rw [joinHex, e, parse6Loop_group m v (hv v (by simp)) _ (digit_not_colon d hd).1, ← e, ih]
    · simp
    · simp

theorem parse6Loop_join_ellipsis : ∀ (g : List Nat) (n : Nat) (acc : List Nat) (r : List Char), (∀ v ∈ g, v < 65536) → g ≠ [] → g.length ≤ n →
    parse6Loop n (joinHex g ++ ':' :: ':' :: r) acc none
      = if r.isEmpty then some (acc ++ g, some (acc.length + g.length), [])
        else parse6Loop (n - g.length) r (acc ++ g) (some (acc.length + g.length))
  | [], _, _, _, _, hn, _ => absurd rfl hn
  | [v], n, acc, r, hv, _, hl => by
    obtain ⟨m, rfl⟩ : ∃ m, n = m + 1 := ⟨n - 1, by simp at hl; omega⟩
    exact parse6Loop_ellipsis m v (hv v (by simp)) r acc
  | v :: w :: gs, n, acc, r, hv, _, hl => by
    obtain ⟨m, rfl⟩ : ∃ m, n = m + 1 := ⟨n - 1, by simp at hl; omega⟩
    have ih := parse6Loop_join_ellipsis (w :: gs) m (acc ++ [v]) r (fun x hx => hv x (List.mem_cons_of_mem _ hx)) (by simp) (by simp at hl ⊢; omega)
    obtain ⟨d, r', hd, e⟩ := joinHex_cons w gs
    rw [joinHex, e, List.append_assoc, List.cons_append, List.cons_append, parse6Loop_group m v (hv v (by simp)) _ (digit_not_colon d hd).1,
      ← List.cons_append, ← e, ih]
    · have e1 : (acc ++ [v]).length + (w :: gs).length = acc.length + (v :: w :: gs).length := by simp; omega
      have e2 : m - (w :: gs).length = m + 1 - (v :: w :: gs).length := by simp
      rw [e1, e2, List.append_assoc, List.singleton_append]
    · simp

theorem bestRun_spec (g : List Nat) : bestRun g = (255, 255) ∨ ∃ i, i < 8 ∧ 2 ≤ zeroRun g i ∧ bestRun g = (i, i + zeroRun g i) := by
  unfold bestRun
  have gen : ∀ (l : List Nat), (∀ i ∈ l, i < 8) → ∀ best : Nat × Nat, (best = (255, 255) ∨ ∃ i, i < 8 ∧ 2 ≤ zeroRun g i ∧ best = (i, i + zeroRun g i)) →
      let x := l.foldl (fun best i => if 2 ≤ zeroRun g i ∧ zeroRun g i > best.2 - best.1 then (i, i + zeroRun g i) else best) best
      x = (255, 255) ∨ ∃ i, i < 8 ∧ 2 ≤ zeroRun g i ∧ x = (i, i + zeroRun g i) := by
    intro l
    induction l with
    | nil => intro _ best h; exact h
    | cons a l ih =>
      intro hl best h
      simp only [List.foldl_cons]
      refine ih (fun i hi => hl i (List.mem_cons_of_mem _ hi)) _ ?_
      split
      · rename_i hc; exact Or.inr ⟨a, hl a (by simp), hc.1, rfl⟩
      · exact h
  exact gen (List.range 8) (fun i hi => List.mem_range.1 hi) (255, 255) (Or.inl rfl)

theorem zeroRun_split (g : List Nat) (i : Nat) : g = g.take i ++ List.replicate (zeroRun g i) 0 ++ g.drop (i + zeroRun g i) := by
  have h1 : (g.drop i).takeWhile (· = 0) = List.replicate (zeroRun g i) 0 := by
    unfold zeroRun
    rw [List.eq_replicate_iff]
    refine ⟨rfl, fun b hb => ?_⟩
    have := (List.all_eq_true.1 (List.all_takeWhile (p := fun x : Nat => decide (x = 0)) (l := g.drop i))) b hb
    simpa using this
  have h2 : g.drop i = List.replicate (zeroRun g i) 0 ++ (g.drop i).dropWhile (· = 0) := by
    rw [← h1]; exact (List.takeWhile_append_dropWhile).symm
  have h3 : g.drop (i + zeroRun g i) = (g.drop i).dropWhile (· = 0) := by
    rw [← List.drop_drop, h2, List.drop_left' (by simp)]
    rw [← h2]
  rw [h3, List.append_assoc, ← h2, List.take_append_drop]

theorem expand_split (p q : List Nat) (k : Nat) (h : p.length + k + q.length = 8) (hk : 0 < k) :
    expand (p ++ q) (some p.length) = some (p ++ List.replicate k 0 ++ q) := by
  unfold expand
  have e : 8 - (p ++ q).length = k := by simp; omega
  rw [if_pos (by simp; omega)]
  simp only [e, List.take_left, List.drop_left]

theorem joinHex_start (g : List Nat) (r : List Char) (hr : g = [] → r.take 2 ≠ [':', ':']) : (joinHex g ++ r).take 2 ≠ [':', ':'] := by
  cases g with
  | nil => simpa [joinHex] using hr rfl
  | cons v g =>
    obtain ⟨d, r', hd, e⟩ := joinHex_cons v g
    rw [e]
    intro h
    simp only [List.cons_append, List.take_succ_cons, List.cons.injEq] at h
    exact (digit_not_colon d hd).1 h.1

theorem parseIPv6_fmt (g : List Nat) (hl : g.length = 8) (hv : ∀ v ∈ g, v < 65536) :
    parseIPv6 (if (bestRun g).1 < 8 then joinHex (g.take (bestRun g).1) ++ ':' :: ':' :: joinHex (g.drop (bestRun g).2) else joinHex g) = some g := by
  rcases bestRun_spec g with h | ⟨i, hi, hz, h⟩
  · rw [h, if_neg (by omega)]
    have hs : (joinHex g).take 2 ≠ [':', ':'] := by
      have := joinHex_start g [] (by intro e; rw [e] at hl; simp at hl)
      simpa using this
    unfold parseIPv6
    rw [if_neg hs]
    simp only [Option.isSome_none, Bool.false_eq_true, false_and, if_false]
    rw [parse6Loop_join g 8 [] none hv (by intro e; rw [e] at hl; simp at hl) (by omega)]
    simp [expand, hl]
  · rw [h, if_pos hi]
    obtain ⟨k, hk⟩ : ∃ k, k = zeroRun g i := ⟨_, rfl⟩
    have hsplit := zeroRun_split g i
    rw [← hk] at hsplit hz
    simp only
    rw [← hk]
    obtain ⟨p, hp⟩ : ∃ p, p = g.take i := ⟨_, rfl⟩
    obtain ⟨q, hq⟩ : ∃ q, q = g.drop (i + k) := ⟨_, rfl⟩
    rw [← hp, ← hq] at hsplit ⊢
    have hpl : p.length = i := by rw [hp]; simp; omega
    have hlen : p.length + k + q.length = 8 := by
      have := congrArg List.length hsplit
      simp only [List.length_append, List.length_replicate, hl] at this
      omega
    have hpv : ∀ v ∈ p, v < 65536 := fun v hv' => hv v (by rw [hp] at hv'; exact List.mem_of_mem_take hv')
    have hqv : ∀ v ∈ q, v < 65536 := fun v hv' => hv v (by rw [hq] at hv'; exact List.mem_of_mem_drop hv')
    have hexp := expand_split p q k hlen (by omega)
    unfold parseIPv6
    cases p with
    | nil =>
      simp only [joinHex, List.nil_append, List.take_succ_cons, List.take_zero, if_true, List.drop_succ_cons, List.drop_zero, Option.isSome_some, true_and]
      cases q with
      | nil =>
        simp only [joinHex, List.isEmpty_nil, if_true]
        simp at hlen
        rw [hsplit]; simp [hlen]
      | cons w q =>
        obtain ⟨d, r, -, e⟩ := joinHex_cons w q
        have hne : (joinHex (w :: q)).isEmpty = false := by rw [e]; rfl
        rw [hne]
        simp only [Bool.false_eq_true, if_false]
        rw [parse6Loop_join (w :: q) 8 [] (some 0) hqv (by simp) (by simp at hlen ⊢; omega)]
        simp only [List.isEmpty_nil, if_true, List.nil_append]
        simp only [List.nil_append, List.length_nil] at hexp
        rw [hexp, hsplit]; simp
    | cons v p =>
      rw [if_neg (joinHex_start (v :: p) _ (by simp))]
      simp only [Option.isSome_none, Bool.false_eq_true, false_and, if_false]
      rw [parse6Loop_join_ellipsis (v :: p) 8 [] _ hpv (by simp) (by omega)]
      cases q with
      | nil =>
        simp only [joinHex, List.isEmpty_nil, if_true, List.nil_append, List.length_nil, Nat.zero_add]
        rw [List.append_nil] at hexp
        rw [hexp, hsplit]
      | cons w q =>
        obtain ⟨d, r, -, e⟩ := joinHex_cons w q
        have hne : (joinHex (w :: q)).isEmpty = false := by rw [e]; rfl
        rw [hne]
        simp only [Bool.false_eq_true, if_false, List.nil_append, List.length_nil, Nat.zero_add]
        rw [parse6Loop_join (w :: q) _ _ _ hqv (by simp) (by omega)]
        simp only [List.isEmpty_nil, if_true]
        rw [hexp, hsplit]

theorem groups_spec : ∀ (n : Nat) (b : Bytes), b.length = 2 * n → (groups b).length = n ∧ (∀ v ∈ groups b, v < 65536) ∧ ungroup (groups b) = b
  | 0, b, h => by
    have : b = [] := List.length_eq_zero_iff.1 (by omega)
    subst this; simp [groups, ungroup]
  | n + 1, b, h => by
    match b, h with
    | x :: y :: r, h =>
      obtain ⟨h1, h2, h3⟩ := groups_spec n r (by simp at h; omega)
      have hx := x.toNat_lt
      have hy := y.toNat_lt
      refine ⟨by simp [groups, h1], ?_, ?_⟩
      · intro v hv
        simp only [groups, List.mem_cons] at hv
        rcases hv with rfl | hv
        · omega
        · exact h2 v hv
      · have e1 : (x.toNat * 256 + y.toNat) / 256 = x.toNat := by omega
        have e2 : UInt8.ofNat (x.toNat * 256 + y.toNat) = y := by
          apply UInt8.toNat.inj; simp
        rw [groups]
        unfold ungroup at h3 ⊢
        rw [List.flatMap_cons, h3, e1, e2]
        simp
    | [x], h => simp only [List.length_cons, List.length_nil] at h; omega
    | [], h => simp at h

theorem toDigits_no_mark (v : Nat) : ∀ c ∈ Nat.toDigits 16 v, c ≠ ':' ∧ c ≠ '.' := by
  induction v using Nat.strongRecOn with
  | _ v ih =>
    by_cases h : v < 16
    · rw [Nat.toDigits_of_lt_base h]
      intro c hc; simp at hc; subst hc; exact digit_not_colon v h
    · rw [Nat.toDigits_of_base_le (by omega) (by omega)]
      intro c hc
      rcases List.mem_append.1 hc with hc | hc
      · exact ih (v / 16) (by omega) c hc
      · simp at hc; subst hc; exact digit_not_colon _ (by omega)

theorem toDigits10_no_mark (v : Nat) : ∀ c ∈ Nat.toDigits 10 v, c ≠ ':' ∧ c ≠ '.' := by
  intro c hc
  have := Nat.isDigit_of_mem_toDigits (b := 10) (by omega) (by omega) hc
  constructor <;> (rintro rfl; exact absurd this (by decide))

theorem find_mark (p r : List Char) (c : Char) (hp : ∀ x ∈ p, x ≠ ':' ∧ x ≠ '.') (hc : c = '.' ∨ c = ':') :
    (p ++ c :: r).find? (fun c => c = '.' || c = ':') = some c := by
  rw [List.find?_append]
  have : p.find? (fun c => c = '.' || c = ':') = none := by
    rw [List.find?_eq_none]
    intro x hx
    simp [(hp x hx).1, (hp x hx).2]
  rw [this]
  rcases hc with rfl | rfl <;> simp

theorem joinHex_no_dot : ∀ (g : List Nat), ∀ c ∈ joinHex g, c ≠ '.'
  | [], c, h => by simp [joinHex] at h
  | [v], c, h => (toDigits_no_mark v c h).2
  | v :: w :: gs, c, h => by
    rw [joinHex] at h
    · rcases List.mem_append.1 h with h | h
      · exact (toDigits_no_mark v c h).2
      · rcases List.mem_cons.1 h with rfl | h
        · decide
        · exact joinHex_no_dot (w :: gs) c h
    · simp

theorem fmtIPv6_find (ip : Bytes) (h : ip.length = 16) : (fmtIPv6 ip).find? (fun c => c = '.' || c = ':') = some ':' := by
  have hmem : ':' ∈ fmtIPv6 ip ∧ ∀ c ∈ fmtIPv6 ip, c ≠ '.' := by
    obtain ⟨hl, -, -⟩ := groups_spec 8 ip h
    unfold fmtIPv6
    simp only
    split
    · refine ⟨by simp, fun c hc => ?_⟩
      simp only [List.mem_append, List.mem_cons] at hc
      rcases hc with hc | rfl | rfl | hc
      · exact joinHex_no_dot _ c hc
      · decide
      · decide
      · exact joinHex_no_dot _ c hc
    · refine ⟨?_, joinHex_no_dot _⟩
      match hg : groups ip with
      | [] => rw [hg] at hl; simp at hl
      | [v] => rw [hg] at hl; simp at hl
      | v :: w :: gs => rw [joinHex]; · simp
                        · simp
  cases hf : (fmtIPv6 ip).find? (fun c => c = '.' || c = ':') with
  | none => have := List.find?_eq_none.1 hf ':' hmem.1; simp at this
  | some c =>
    have h1 := List.find?_some hf
    have h2 := hmem.2 c (List.mem_of_find?_eq_some hf)
    simp [h2] at h1
    rw [h1]

/-- The 16-byte form of an address. -/
def to16 (ip : Bytes) : Bytes := if ip.length = 4 then v4InV6Prefix ++ ip else ip

theorem parseIP_ipString (ip : Bytes) (h : ip.length = 4 ∨ ip.length = 16) : parseIP (ipString ip) = some (to16 ip) := by
  have hne : ¬ ip.length = 0 := by omega
  have hne2 : ¬ (ip.length ≠ 4 ∧ ip.length ≠ 16) := by omega
  unfold ipString
  rw [if_neg hne, if_neg hne2]
  have v4 : ∀ p : Bytes, p.length = 4 → parseIP (fmtIPv4 p) = some (v4InV6Prefix ++ p) := by
    intro p hp
    match p, hp with
    | [a, b, c, d], _ =>
      have e : fmtIPv4 [a, b, c, d] = Nat.toDigits 10 a.toNat ++ '.' :: fmtIPv4 [b, c, d] := by simp only [fmtIPv4]
      unfold parseIP
      rw [e, find_mark _ _ _ (toDigits10_no_mark _) (Or.inl rfl), ← e, parseIPv4_fmt]
      simp [netIPv4]
  cases h4 : to4 ip with
  | some p =>
    simp only
    unfold to4 at h4
    by_cases hl : ip.length = 4
    · rw [if_pos hl] at h4
      simp only [Option.some.injEq] at h4
      subst h4
      rw [v4 _ hl, to16, if_pos hl]
    · rw [if_neg hl] at h4
      split at h4
      · rename_i hc
        simp only [Option.some.injEq] at h4
        subst h4
        rw [v4 _ (by simp; omega), to16, if_neg hl, ← hc.2, List.take_append_drop]
      · simp at h4
  | none =>
    simp only
    have hl : ip.length = 16 := by
      rcases h with h | h
      · unfold to4 at h4; rw [if_pos h] at h4; simp at h4
      · exact h
    obtain ⟨h1, h2, h3⟩ := groups_spec 8 ip hl
    unfold parseIP
    rw [fmtIPv6_find ip hl]
    simp only
    rw [if_neg (by decide)]
    have := parseIPv6_fmt (groups ip) h1 h2
    unfold fmtIPv6
    simp only
    rw [this]
    simp only [Option.map_some, h3]
    rw [to16, if_neg (by omega)]

theorem parse6Loop_length : ∀ (n : Nat) (s : List Char) (acc : List Nat) (ell : Option Nat) (r : List Nat × Option Nat × List Char),
    parse6Loop n s acc ell = some r → acc.length + n ≤ 8 → r.1.length ≤ 8
  | 0, s, acc, ell, r, h, hn => by
    simp only [parse6Loop, Option.some.injEq] at h
    subst h; simpa using hn
  | n + 1, s, acc, ell, r, h, hn => by
    have hl : ∀ v, (acc ++ [v]).length + n ≤ 8 := by intro v; simp; omega
    rw [parse6Loop] at h
    split at h
    · simp at h
    · split at h
      · simp at h
      · split at h
        · simp only [Option.some.injEq] at h; subst h; simp; omega
        · split at h
          · split at h
            · simp at h
            · split at h
              · simp at h
              · split at h
                · simp at h
                · simp only [Option.some.injEq] at h; subst h; simp; omega
          · split at h
            · simp at h
            · split at h
              · simp at h
              · split at h
                · split at h
                  · simp at h
                  · split at h
                    · simp only [Option.some.injEq] at h; subst h; simp; omega
                    · exact parse6Loop_length n _ _ _ r h (hl _)
                · exact parse6Loop_length n _ _ _ r h (hl _)

theorem parseIP_length (s : List Char) (ip : Bytes) (h : parseIP s = some ip) : ip.length = 16 := by
  unfold parseIP at h
  split at h
  · simp at h
  · split at h
    · simp only [Option.map_eq_some_iff] at h
      obtain ⟨p, -, rfl⟩ := h
      rfl
    · simp only [Option.map_eq_some_iff] at h
      obtain ⟨g, hg, rfl⟩ := h
      have hg8 : g.length = 8 := by
        unfold parseIPv6 at hg
        generalize (if s.take 2 = [':', ':'] then (s.drop 2, some 0) else (s, none) : List Char × Option Nat) = start at hg
        simp only at hg
        split at hg
        · simp only [Option.some.injEq] at hg; subst hg; simp
        · split at hg
          · simp at hg
          · rename_i acc ell rest hp
            have hl := parse6Loop_length _ _ _ _ _ hp (by simp)
            split at hg
            · unfold expand at hg
              split at hg
              · split at hg
                · simp at hg
                · rename_i e
                  simp only [Option.some.injEq] at hg; subst hg
                  simp only [List.length_append, List.length_replicate, List.length_take, List.length_drop]
                  simp only at hl
                  omega
              · split at hg
                · simp at hg
                · simp only [Option.some.injEq] at hg; subst hg; simp only at hl; omega
            · simp at hg
      have : ∀ g : List Nat, (ungroup g).length = 2 * g.length := by
        intro g; unfold ungroup; induction g with
        | nil => rfl
        | cons a g ih => simp only [List.flatMap_cons, List.length_append, ih, List.length_cons, List.length_nil]; omega
      rw [this, hg8]

/-! ## What texts are accepted -/

theorem decVal_char {c : Char} {d : Nat} (h : decVal c = some d) : d < 10 ∧ Nat.digitChar d = c := by
  unfold decVal at h
  split at h
  · rename_i hc
    injection h with h
    refine ⟨by omega, ?_⟩
    have : Nat.digitChar d = Char.ofNat c.toNat := by
      have e : c.toNat = d + 48 := by omega
      rw [e]
      have hd : d < 10 := by omega
      clear e hc h
      revert d
      decide
    rw [this, Char.ofNat_toNat]
  · simp at h

theorem scanNum_digits (s : List Char) : ∀ n0 n rest, 0 < n0 → scanNum decVal 10 n0 s = some (n, rest) → Nat.toDigits 10 n0 ++ s = Nat.toDigits 10 n ++ rest := by
  induction s with
  | nil => intro n0 n rest _ h; simp only [scanNum] at h; injection h with h; injection h with h1 h2; subst h1; subst h2; rfl
  | cons c s ih =>
    intro n0 n rest h0 h
    simp only [scanNum] at h
    split at h
    · injection h with h; injection h with h1 h2; subst h1; subst h2; rfl
    · rename_i d hd
      obtain ⟨h1, h2⟩ := decVal_char hd
      split at h
      · simp at h
      · have := ih _ _ _ (by omega) h
        rw [← this, Nat.toDigits_of_base_le (by omega) (by omega : 10 ≤ n0 * 10 + d)]
        have e1 : (n0 * 10 + d) / 10 = n0 := by omega
        have e2 : (n0 * 10 + d) % 10 = d := by omega
        rw [e1, e2, h2]
        simp

theorem scanNum_len (val : Char → Option Nat) (b : Nat) (s : List Char) : ∀ n0 n rest, scanNum val b n0 s = some (n, rest) → rest.length ≤ s.length := by
  induction s with
  | nil => intro n0 n rest h; simp only [scanNum] at h; injection h with h; injection h with h1 h2; subst h2; simp
  | cons c s ih =>
    intro n0 n rest h
    simp only [scanNum] at h
    split at h
    · injection h with h; injection h with h1 h2; subst h2; simp
    · split at h
      · simp at h
      · have := ih _ _ _ h; simp; omega

theorem octet_text {s rest : List Char} {n : Nat} (h : octet s = some (n, rest)) : n < 256 ∧ s = Nat.toDigits 10 n ++ rest := by
  unfold octet at h
  split at h
  · simp at h
  · rename_i v r hv
    split at h
    · simp at h
    · split at h
      · simp at h
      · rename_i hn hz
        injection h with h; injection h with h1 h2; subst h1; subst h2
        refine ⟨by omega, ?_⟩
        unfold toI at hv
        split at hv
        · simp at hv
        · rename_i hh
          cases s with
          | nil => simp at hh
          | cons c s =>
            simp only [scanNum] at hv
            split at hv
            · rename_i hd; simp [hd] at hh
            · rename_i d hd
              obtain ⟨h1, h2⟩ := decVal_char hd
              simp only [Nat.zero_mul, Nat.zero_add] at hv
              split at hv
              · simp at hv
              · by_cases h0 : d = 0
                · subst h0
                  have hc : c = '0' := by rw [← h2]; rfl
                  subst hc
                  cases s with
                  | nil => simp only [scanNum] at hv; injection hv with hv; injection hv with e1 e2; subst e1; subst e2; rfl
                  | cons c' s =>
                    simp only [scanNum] at hv
                    split at hv
                    · injection hv with hv; injection hv with e1 e2; subst e1; subst e2; rfl
                    · exfalso
                      split at hv
                      · simp at hv
                      · have := scanNum_len _ _ _ _ _ _ hv
                        apply hz
                        simp
                        omega
                · have := scanNum_digits s d v r (by omega) hv
                  rw [← this, Nat.toDigits_of_lt_base h1, h2]; rfl

theorem dot_text {s r : List Char} (h : dot s = some r) : s = '.' :: r := by
  cases s with
  | nil => simp [dot] at h
  | cons c s => simp only [dot] at h; split at h <;> simp_all

theorem parseIPv4_text {s : List Char} {p : Nat × Nat × Nat × Nat} (h : parseIPv4 s = some p) :
    p.1 < 256 ∧ p.2.1 < 256 ∧ p.2.2.1 < 256 ∧ p.2.2.2 < 256 ∧ s = fmtIPv4 [UInt8.ofNat p.1, UInt8.ofNat p.2.1, UInt8.ofNat p.2.2.1, UInt8.ofNat p.2.2.2] := by
  unfold parseIPv4 at h
  simp only [Option.bind_eq_bind, Option.bind_eq_some_iff] at h
  obtain ⟨⟨a, s1⟩, h1, t1, d1, ⟨b, s2⟩, h2, t2, d2, ⟨c, s3⟩, h3, t3, d3, ⟨d, s4⟩, h4, h⟩ := h
  split at h
  · rename_i he
    injection h with h; subst h
    obtain ⟨a1, rfl⟩ := octet_text h1
    obtain ⟨a2, rfl⟩ := octet_text h2
    obtain ⟨a3, rfl⟩ := octet_text h3
    obtain ⟨a4, rfl⟩ := octet_text h4
    simp only at d1 d2 d3 he
    have e1 := dot_text d1; have e2 := dot_text d2; have e3 := dot_text d3
    subst e1; subst e2; subst e3
    have e4 : s4 = [] := by simpa using he
    subst e4
    refine ⟨a1, a2, a3, a4, ?_⟩
    simp [fmtIPv4, Nat.mod_eq_of_lt a1, Nat.mod_eq_of_lt a2, Nat.mod_eq_of_lt a3, Nat.mod_eq_of_lt a4]
  · simp at h

end TcpInfo

import Verif.Spec.Wire
import Verif.Model.InetDiag
/-! Helper lemmas on byte strings. -/

namespace TcpInfo
open Spec

@[simp] theorem Spec.le_length (n v : Nat) : (le n v).length = n := by
  induction n generalizing v with
  | zero => rfl
  | succ n ih => simp [le, ih]

@[simp] theorem Spec.be_length (n v : Nat) : (be n v).length = n := by simp [be]

theorem leNat_le (n v : Nat) : leNat (le n v) = v % 256 ^ n := by
  induction n generalizing v with
  | zero => simp [le, leNat, Nat.mod_one]
  | succ n ih =>
    simp only [le, leNat, ih]
    have : (UInt8.ofNat (v % 256)).toNat = v % 256 := by
      simp [UInt8.toNat_ofNat']
    rw [this, Nat.pow_succ', Nat.mod_mul]

theorem beNat_append_singleton (b : Bytes) (x : UInt8) : beNat (b ++ [x]) = beNat b * 256 + x.toNat := by
  simp [beNat, List.foldl_append]

theorem beNat_reverse (b : Bytes) : beNat b.reverse = leNat b := by
  induction b with
  | nil => rfl
  | cons x xs ih =>
    rw [List.reverse_cons, beNat_append_singleton, ih, leNat]; omega

theorem beNat_be (n v : Nat) : beNat (be n v) = v % 256 ^ n := by
  rw [be, beNat_reverse, leNat_le]

theorem leNat_lt (b : Bytes) : leNat b < 256 ^ b.length := by
  induction b with
  | nil => simp [leNat]
  | cons x xs ih =>
    have hx : x.toNat < 256 := UInt8.toNat_lt x
    simp only [leNat, List.length_cons, Nat.pow_succ]
    omega

theorem le_leNat (b : Bytes) : le b.length (leNat b) = b := by
  induction b with
  | nil => rfl
  | cons x xs ih =>
    have hx : x.toNat < 256 := UInt8.toNat_lt x
    simp only [List.length_cons, le, leNat]
    have h1 : (x.toNat + 256 * leNat xs) % 256 = x.toNat := by omega
    have h2 : (x.toNat + 256 * leNat xs) / 256 = leNat xs := by omega
    rw [h1, h2, ih]
    simp

theorem be_beNat (b : Bytes) : be b.length (beNat b) = b := by
  have := le_leNat b.reverse
  rw [be]
  have h2 : beNat b = leNat b.reverse := by rw [← beNat_reverse, List.reverse_reverse]
  rw [h2]
  rw [List.length_reverse] at this
  rw [this, List.reverse_reverse]

theorem beNat_lt (b : Bytes) : beNat b < 256 ^ b.length := by
  have h2 : beNat b = leNat b.reverse := by rw [← beNat_reverse, List.reverse_reverse]
  rw [h2]
  simpa using leNat_lt b.reverse

theorem leNat_inj {a b : Bytes} (hl : a.length = b.length) (h : leNat a = leNat b) : a = b := by
  have ha := le_leNat a
  have hb := le_leNat b
  rw [← ha, ← hb, hl, h]

/-! ### `sub` of concatenations -/

theorem sub_append_skip (A B : Bytes) (off n : Nat) (h : A.length ≤ off) :
    sub off n (A ++ B) = sub (off - A.length) n B := by
  simp [sub, List.drop_append, List.drop_eq_nil_of_le h]

theorem sub_append_here (A B : Bytes) (n : Nat) (h : A.length = n) : sub 0 n (A ++ B) = A := by
  subst h; simp [sub]

theorem sub_length (off n : Nat) (b : Bytes) (h : off + n ≤ b.length) : (sub off n b).length = n := by
  simp [sub]; omega

theorem sub_sub (o1 n1 o2 n2 : Nat) (b : Bytes) (h : o2 + n2 ≤ n1) :
    sub o2 n2 (sub o1 n1 b) = sub (o1 + o2) n2 b := by
  simp only [sub, List.drop_take, List.drop_drop, List.take_take]
  congr 1
  omega

theorem getElem?_sub (off n i : Nat) (b : Bytes) : (sub off n b)[i]? = if i < n then b[off + i]? else none := by
  simp [sub, List.getElem?_take, List.getElem?_drop]

/-- Cut a list at successive offsets. -/
theorem take_append_sub (off n : Nat) (b : Bytes) : b.take off ++ sub off n b = b.take (off + n) := by
  simp [sub, List.take_add]

@[simp] theorem align72 : rtaAlignOf sizeofInetDiagMsg = 72 := rfl

theorem parseIDM_ok {raw : Bytes} (h : 72 ≤ raw.length) : parseIDM raw = .ok {
    family := u8At 0 raw, state := u8At 1 raw, timer := u8At 2 raw, retrans := u8At 3 raw
    id := parseSockID (sub 4 48 raw)
    expires := u32At 52 raw, rqueue := u32At 56 raw, wqueue := u32At 60 raw
    uid := u32At 64 raw, inode := u32At 68 raw } := by
  exact if_neg (by rw [align72]; omega)

theorem parseIDM_short {raw : Bytes} (h : raw.length < 72) : parseIDM raw = .err .parseFailed := by
  exact if_pos (by rw [align72]; omega)

theorem splitInetDiagMsg_ok {data : Bytes} (h : 72 ≤ data.length) :
    splitInetDiagMsg data = some (data.take 72, data.drop 72) := by
  exact if_neg (by rw [align72]; omega)

theorem splitInetDiagMsg_short {data : Bytes} (h : data.length < 72) : splitInetDiagMsg data = none := by
  exact if_pos (by rw [align72]; omega)

theorem parseSockID_sub (raw : Bytes) : parseSockID (sub 4 48 raw) =
    { sport := sub 4 2 raw, dport := sub 6 2 raw, src := sub 8 16 raw, dst := sub 24 16 raw,
      iface := sub 40 4 raw, cookie := sub 44 8 raw } := by
  simp only [parseSockID]
  rw [sub_sub _ _ _ _ _ (by omega), sub_sub _ _ _ _ _ (by omega), sub_sub _ _ _ _ _ (by omega),
    sub_sub _ _ _ _ _ (by omega), sub_sub _ _ _ _ _ (by omega), sub_sub _ _ _ _ _ (by omega)]

/-- Re-encoding a decoded field gives its bytes back. -/
theorem be_u16 (b : Bytes) (h : b.length = 2) : be 2 (UInt16.ofNat (beNat b)).toNat = b := by
  have := beNat_lt b
  rw [h] at this
  have e : (UInt16.ofNat (beNat b)).toNat = beNat b := by
    rw [UInt16.toNat_ofNat']; exact Nat.mod_eq_of_lt (by omega)
  rw [e]; simpa [h] using be_beNat b

theorem be_u32 (b : Bytes) (h : b.length = 4) : be 4 (UInt32.ofNat (beNat b)).toNat = b := by
  have := beNat_lt b
  rw [h] at this
  have e : (UInt32.ofNat (beNat b)).toNat = beNat b := by
    rw [UInt32.toNat_ofNat']; exact Nat.mod_eq_of_lt (by omega)
  rw [e]; simpa [h] using be_beNat b

theorem le_u32 (b : Bytes) (h : b.length = 4) : le 4 (UInt32.ofNat (leNat b)).toNat = b := by
  have := leNat_lt b
  rw [h] at this
  have e : (UInt32.ofNat (leNat b)).toNat = leNat b := by
    rw [UInt32.toNat_ofNat']; exact Nat.mod_eq_of_lt (by omega)
  rw [e]; simpa [h] using le_leNat b

theorem le_u16 (b : Bytes) (h : b.length = 2) : le 2 (UInt16.ofNat (leNat b)).toNat = b := by
  have := leNat_lt b
  rw [h] at this
  have e : (UInt16.ofNat (leNat b)).toNat = leNat b := by
    rw [UInt16.toNat_ofNat']; exact Nat.mod_eq_of_lt (by omega)
  rw [e]; simpa [h] using le_leNat b

theorem le_u64 (b : Bytes) (h : b.length = 8) : le 8 (UInt64.ofNat (leNat b)).toNat = b := by
  have := leNat_lt b
  rw [h] at this
  have e : (UInt64.ofNat (leNat b)).toNat = leNat b := by
    rw [UInt64.toNat_ofNat']; exact Nat.mod_eq_of_lt (by omega)
  rw [e]; simpa [h] using le_leNat b

theorem singleton_u8At (off : Nat) (b : Bytes) (h : off < b.length) : [u8At off b] = sub off 1 b := by
  apply List.ext_getElem?
  intro i
  rw [getElem?_sub]
  cases i with
  | zero => simp [u8At, h]
  | succ i => simp

end TcpInfo

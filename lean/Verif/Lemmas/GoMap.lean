import Verif.Model.Cache
/-! Lemmas about Go maps. -/

namespace TcpInfo.GoMap
variable {α : Type}

/-- No key occurs twice. -/
def WF (m : GoMap α) : Prop := (keys m).Nodup

theorem get_nil (k : UInt64) : get ([] : GoMap α) k = none := rfl

theorem get_filter_ne (m : GoMap α) (k k' : UInt64) :
    get (m.filter (fun p => p.1 ≠ k)) k' = if k' = k then none else get m k' := by
  induction m with
  | nil => simp [get]
  | cons p m ih =>
    obtain ⟨a, v⟩ := p
    by_cases h : a = k
    · have hf : ((a, v) :: m).filter (fun p => p.1 ≠ k) = m.filter (fun p => p.1 ≠ k) := by simp [h]
      rw [hf, ih]
      by_cases h' : k' = k
      · simp [h']
      · rw [if_neg h', if_neg h', get, if_neg (fun e => h' (e.symm.trans h))]
    · have hf : ((a, v) :: m).filter (fun p => p.1 ≠ k) = (a, v) :: m.filter (fun p => p.1 ≠ k) := by simp [h]
      rw [hf, get, get]
      by_cases h2 : a = k'
      · subst h2; simp [h]
      · rw [if_neg h2, if_neg h2, ih]

theorem get_del (m : GoMap α) (k k' : UInt64) : get (del m k) k' = if k' = k then none else get m k' := get_filter_ne m k k'

theorem get_set (m : GoMap α) (k k' : UInt64) (v : α) : get (set m k v) k' = if k' = k then some v else get m k' := by
  rw [set, get, get_del]
  by_cases h : k' = k
  · simp [h]
  · rw [if_neg h, if_neg h, if_neg (fun e => h e.symm)]

theorem get_set_self (m : GoMap α) (k : UInt64) (v : α) : get (set m k v) k = some v := by simp [get_set]
theorem get_set_ne (m : GoMap α) {k k' : UInt64} (v : α) (h : k' ≠ k) : get (set m k v) k' = get m k' := by simp [get_set, h]
theorem get_del_self (m : GoMap α) (k : UInt64) : get (del m k) k = none := by simp [get_del]
theorem get_del_ne (m : GoMap α) {k k' : UInt64} (h : k' ≠ k) : get (del m k) k' = get m k' := by simp [get_del, h]

theorem mem_keys_iff (m : GoMap α) (k : UInt64) : k ∈ keys m ↔ ∃ v, get m k = some v := by
  induction m with
  | nil => simp [keys, get]
  | cons p m ih =>
    obtain ⟨a, v⟩ := p
    rw [keys, List.map_cons, List.mem_cons]
    by_cases h : a = k
    · subst h; simp [get]
    · rw [get, if_neg h, ← ih]
      constructor
      · rintro (rfl | h')
        · exact absurd rfl h
        · exact h'
      · exact Or.inr

theorem get_eq_none_iff (m : GoMap α) (k : UInt64) : get m k = none ↔ k ∉ keys m := by
  rw [mem_keys_iff]
  cases get m k <;> simp

theorem wf_nil : WF ([] : GoMap α) := by simp [WF, keys]

theorem keys_del (m : GoMap α) (k : UInt64) : keys (del m k) = (keys m).filter (fun x => x ≠ k) := by
  rw [keys, del, keys, List.filter_map]; rfl

theorem wf_del {m : GoMap α} (h : WF m) (k : UInt64) : WF (del m k) := by
  rw [WF, keys_del]; exact List.Pairwise.filter _ h

theorem wf_set {m : GoMap α} (h : WF m) (k : UInt64) (v : α) : WF (set m k v) := by
  rw [WF, set, keys, List.map_cons, List.nodup_cons]
  refine ⟨?_, wf_del h k⟩
  show k ∉ keys (del m k)
  rw [keys_del]; simp

theorem mem_of_get {m : GoMap α} {k : UInt64} {v : α} (h : get m k = some v) : (k, v) ∈ m := by
  induction m with
  | nil => simp [get] at h
  | cons p m ih =>
    obtain ⟨a, w⟩ := p
    rw [get] at h
    split at h
    · rename_i hk; subst hk; injection h with h; subst h; simp
    · exact List.mem_cons_of_mem _ (ih h)

theorem get_of_mem {m : GoMap α} (hw : WF m) {k : UInt64} {v : α} (h : (k, v) ∈ m) : get m k = some v := by
  induction m with
  | nil => simp at h
  | cons p m ih =>
    obtain ⟨a, w⟩ := p
    rw [WF, keys, List.map_cons, List.nodup_cons] at hw
    rcases List.mem_cons.1 h with h | h
    · injection h with h1 h2; subst h1; subst h2; simp [get]
    · rw [get]
      have : a ≠ k := by
        rintro rfl
        exact hw.1 (List.mem_map.2 ⟨_, h, rfl⟩)
      rw [if_neg this]; exact ih hw.2 h

end TcpInfo.GoMap

import Verif.Model.Startup
import Verif.Props.Path
/-!
# C98: start-up of the command
-/

namespace TcpInfo
open Spec Startup

/-! ## Components of paths -/

theorem components_go_append (p q cur : List Char) (hp : '/' ∉ p) : components.go (p ++ q) cur = components.go q (cur ++ p) := by
  induction p generalizing cur with
  | nil => simp
  | cons c p ih =>
    simp only [List.cons_append, components.go]
    rw [if_neg (by rintro rfl; simp at hp), ih _ (by intro h; exact hp (by simp [h]))]
    simp

theorem components_single (p : List Char) (hp : '/' ∉ p) (h0 : p ≠ []) (h1 : p ≠ ['.']) : components p = [p] := by
  unfold components
  have := components_go_append p [] [] hp
  rw [List.append_nil] at this
  rw [this]
  simp [components.go, components.push, h0, h1]

theorem components_slash (p q : List Char) (hp : '/' ∉ p) (h0 : p ≠ []) (h1 : p ≠ ['.']) : components (p ++ '/' :: q) = p :: components q := by
  unfold components
  rw [components_go_append p _ [] hp]
  simp [components.go, components.push, h0, h1]

theorem walk_plain (dir cs : List (List Char)) (h : ['.', '.'] ∉ cs) : walk dir cs = dir ++ cs := by
  induction cs generalizing dir with
  | nil => simp [walk]
  | cons c cs ih =>
    have hc : c ≠ ['.', '.'] := by rintro rfl; simp at h
    rw [walk, if_neg hc, ih _ (by intro hm; exact h (by simp [hm]))]
    simp

theorem resolve_plain (cwd : List (List Char)) (p : List Char) (hr : p.head? ≠ some '/') (h : ['.', '.'] ∉ components p) : resolve cwd p = cwd ++ components p := by
  unfold resolve
  rw [if_neg hr, walk_plain _ _ h]

/-! ## Start-up -/

theorem run_started (ok : Act → Bool) (l : List (Act × Bool)) : (run ok l).2 = true ↔ ∀ a, (a, true) ∈ l → ok a = true := by
  induction l with
  | nil => simp [run]
  | cons x l ih =>
    obtain ⟨a, fatal⟩ := x
    unfold run
    cases fatal
    · simp [ih]
    · cases h : ok a
      · simp only [Bool.true_and, Bool.not_false, if_true]
        constructor
        · intro h; simp at h
        · intro h'; have := h' a (by simp); rw [h] at this; simp at this
      · simp [ih, h]

theorem run_acts (ok : Act → Bool) (l : List (Act × Bool)) (h : (run ok l).2 = true) : (run ok l).1 = l.map (·.1) := by
  induction l with
  | nil => rfl
  | cons x l ih =>
    obtain ⟨a, fatal⟩ := x
    unfold run at h ⊢
    split at h
    · simp at h
    · rename_i hn
      rw [if_neg hn]
      simp only at h
      rw [ih h]; rfl

theorem run_failed (ok : Act → Bool) (l : List (Act × Bool)) (h : (run ok l).2 = false) :
    ∃ pre a post, l = pre ++ (a, true) :: post ∧ ok a = false ∧ (run ok l).1 = pre.map (·.1) ++ [a] ∧ ∀ x, (x, true) ∈ pre → ok x = true := by
  induction l with
  | nil => simp [run] at h
  | cons x l ih =>
    obtain ⟨a, fatal⟩ := x
    unfold run at h ⊢
    split at h
    · rename_i hc
      simp at hc
      rw [if_pos (by simp [hc])]
      obtain ⟨rfl, hc⟩ := hc
      exact ⟨[], a, l, rfl, hc, rfl, by simp⟩
    · rename_i hn
      rw [if_neg hn]
      simp only at h
      obtain ⟨pre, b, post, rfl, h1, h2, h3⟩ := ih h
      refine ⟨(a, fatal) :: pre, b, post, rfl, h1, by simp [h2], ?_⟩
      intro x hx
      rcases List.mem_cons.1 hx with e | hx
      · injection e with e1 e2; subst e1; subst e2
        simp at hn; exact hn
      · exact h3 x hx

/-- Where data goes: the directory named by `-output`, taken from the directory the program is started in; without it that directory. -/
def Spec.DataDir (output : List Char) (cwd dir : List (List Char)) : Prop :=
  (output = [] ∧ dir = cwd) ∨ (output ≠ [] ∧ dir = resolve cwd output)

/-- C98. Polling begins exactly if everything asked for with flags could be provided: the output directory exists and is the current directory, metrics are
served, the trace is running, the event socket listens. -/
theorem C98_started_iff (ok : Act → Bool) (f : Flags) (cwd dir : List (List Char)) (hd : DataDir f.output cwd dir) :
    (start ok f cwd).2 = true ↔
      (f.output ≠ [] → ok (.mkdirAll dir) = true ∧ ok (.chdir dir) = true) ∧ ok .serveMetrics = true
      ∧ (f.trace = true → ok (.createTrace (dir ++ ["trace".toList])) = true ∧ ok .startTrace = true)
      ∧ (f.socket ≠ [] → ok (.listen (resolve dir f.socket)) = true) := by
  have hw : workDir f cwd = dir := by
    unfold workDir
    rcases hd with ⟨h1, h2⟩ | ⟨h1, h2⟩
    · rw [if_pos h1, h2]
    · rw [if_neg h1, h2]
  have ht : resolve dir "trace".toList = dir ++ ["trace".toList] := by
    rw [resolve_plain _ _ (by decide) (by decide)]; rfl
  unfold start
  rw [run_started]
  unfold acts
  simp only [hw, ht]
  by_cases h1 : f.output = [] <;> by_cases h2 : f.trace = true <;> by_cases h3 : f.socket = [] <;> simp [h1, h2, h3, and_assoc]

/-- C98. If polling begins, everything was tried in this order, once, before: directory, metrics, trace, socket (a stale socket file removed before). -/
theorem C98_order (ok : Act → Bool) (f : Flags) (cwd dir : List (List Char)) (hd : DataDir f.output cwd dir) (h : (start ok f cwd).2 = true) :
    (start ok f cwd).1 = (if f.output = [] then [] else [.mkdirAll dir, .chdir dir]) ++ [.serveMetrics]
      ++ (if f.trace = true then [.createTrace (dir ++ ["trace".toList]), .startTrace] else [])
      ++ (if f.socket = [] then [] else [.removeSocket (resolve dir f.socket), .listen (resolve dir f.socket), .serve]) := by
  have hw : workDir f cwd = dir := by
    unfold workDir
    rcases hd with ⟨h1, h2⟩ | ⟨h1, h2⟩
    · rw [if_pos h1, h2]
    · rw [if_neg h1, h2]
  have ht : resolve dir "trace".toList = dir ++ ["trace".toList] := by
    rw [resolve_plain _ _ (by decide) (by decide)]; rfl
  unfold start at h ⊢
  rw [run_acts ok _ h]
  unfold acts
  simp only [hw, ht]
  by_cases h1 : f.output = [] <;> by_cases h2 : f.trace = true <;> by_cases h3 : f.socket = [] <;> simp [h1, h2, h3]

/-- C98. If something needed fails the program ends there: it is the last thing tried, everything needed before it succeeded, and no client is served. -/
theorem C98_failure (ok : Act → Bool) (f : Flags) (cwd : List (List Char)) (h : (start ok f cwd).2 = false) :
    ∃ before a, (start ok f cwd).1 = before ++ [a] ∧ ok a = false ∧ (∀ x ∈ before, ok x = true ∨ ∃ p, x = .removeSocket p) ∧ .serve ∉ before ++ [a] := by
  obtain ⟨pre, a, post, e, h1, h2, h3⟩ := run_failed ok _ h
  have hall : ∀ x b, (x, b) ∈ acts f cwd → b = true ∨ x = .serve ∨ ∃ p, x = .removeSocket p := by
    intro x b hx
    unfold acts at hx
    simp only [List.mem_append] at hx
    rcases hx with ((hx | hx) | hx) | hx
    · split at hx <;> simp at hx
      rcases hx with ⟨-, rfl⟩ | ⟨-, rfl⟩ <;> simp
    · simp at hx; simp [hx]
    · split at hx <;> simp at hx
      rcases hx with ⟨-, rfl⟩ | ⟨-, rfl⟩ <;> simp
    · split at hx <;> simp at hx
      rcases hx with ⟨rfl, rfl⟩ | ⟨rfl, rfl⟩ | ⟨rfl, rfl⟩ <;> simp
  have hserve : ∀ pre' b post', acts f cwd = pre' ++ (Act.serve, b) :: post' → post' = [] ∧ b = false := by
    intro pre' b post' e'
    have key : ∃ l0 : List (Act × Bool), (∀ b, (Act.serve, b) ∉ l0) ∧ (acts f cwd = l0 ∨ acts f cwd = l0 ++ [(.serve, false)]) := by
      unfold acts
      simp only
      by_cases h1 : f.output = [] <;> by_cases h2 : f.trace = true <;> by_cases h3 : f.socket = [] <;> simp only [h1, h2, h3, ne_eq, not_true_eq_false, not_false_eq_true, if_true, if_false]
      · exact ⟨_, by simp, Or.inl rfl⟩
      · exact ⟨[] ++ [(.serveMetrics, true)] ++ [(.createTrace _, true), (.startTrace, true)] ++ [(.removeSocket _, false), (.listen _, true)], by simp, Or.inr rfl⟩
      · exact ⟨_, by simp, Or.inl rfl⟩
      · exact ⟨[] ++ [(.serveMetrics, true)] ++ [] ++ [(.removeSocket _, false), (.listen _, true)], by simp, Or.inr rfl⟩
      · exact ⟨_, by simp, Or.inl rfl⟩
      · exact ⟨[(.mkdirAll _, true), (.chdir _, true)] ++ [(.serveMetrics, true)] ++ [(.createTrace _, true), (.startTrace, true)] ++ [(.removeSocket _, false), (.listen _, true)], by simp, Or.inr rfl⟩
      · exact ⟨_, by simp, Or.inl rfl⟩
      · exact ⟨[(.mkdirAll _, true), (.chdir _, true)] ++ [(.serveMetrics, true)] ++ [] ++ [(.removeSocket _, false), (.listen _, true)], by simp, Or.inr rfl⟩
    obtain ⟨l0, hl0, hk | hk⟩ := key
    · exact absurd (by rw [← hk, e']; simp) (hl0 b)
    · rw [hk] at e'
      rcases List.eq_nil_or_concat post' with rfl | ⟨q, y, rfl⟩
      · have := List.append_inj_right' e' rfl
        simp at this
        exact ⟨rfl, this⟩
      · have e2 : l0 ++ [(Act.serve, false)] = (pre' ++ (Act.serve, b) :: q) ++ [y] := by rw [e']; simp
        have := List.append_inj_left' e2 rfl
        exact absurd (by rw [this]; simp) (hl0 b)
  refine ⟨pre.map (·.1), a, by unfold start; exact h2, h1, ?_, ?_⟩
  · intro x hx
    obtain ⟨⟨x', b⟩, hm, rfl⟩ := List.mem_map.1 hx
    simp only
    rcases hall x' b (by rw [e]; simp [hm]) with rfl | rfl | hp
    · exact Or.inl (h3 _ hm)
    · exfalso
      obtain ⟨p1, p2, rfl⟩ := List.append_of_mem hm
      have := (hserve p1 b (p2 ++ (a, true) :: post) (by rw [e]; simp)).1
      simp at this
    · exact Or.inr hp
  · intro hm
    rcases List.mem_append.1 hm with hm | hm
    · obtain ⟨⟨x', b⟩, hm, e2⟩ := List.mem_map.1 hm
      simp only at e2; subst e2
      obtain ⟨p1, p2, rfl⟩ := List.append_of_mem hm
      have := (hserve p1 b (p2 ++ (a, true) :: post) (by rw [e]; simp)).1
      simp at this
    · simp at hm; subst hm
      have := (hserve pre true post e).2
      simp at this

theorem pad_plain (w n : Nat) (hw : 0 < w) (pre : List Char) : pre ++ fmtPad w n ≠ [] ∧ pre ++ fmtPad w n ≠ ['.'] ∧ pre ++ fmtPad w n ≠ ['.', '.'] := by
  have hl := (fmtPad_length w n hw).1
  rcases List.eq_nil_or_concat (fmtPad w n) with h | ⟨q, c, h⟩
  · rw [h] at hl; simp at hl; omega
  · have hc : c.isDigit = true := fmtPad_digit (w := w) (n := n) (by rw [h]; simp)
    have hne : c ≠ '.' := by rintro rfl; simp at hc
    rw [h]
    refine ⟨by simp, ?_, ?_⟩
    · intro e
      have := congrArg List.getLast? e
      simp at this
      exact hne this
    · intro e
      have := congrArg List.getLast? e
      simp at this
      exact hne this

theorem datePath_components (t : Int) (q : List Char) :
    ∃ y m d, datePath t = y ++ '/' :: (m ++ '/' :: d) ∧ components (datePath t ++ '/' :: q) = y :: m :: d :: components q
      ∧ y ≠ ['.', '.'] ∧ m ≠ ['.', '.'] ∧ d ≠ ['.', '.'] ∧ y.head? ≠ some '/' ∧ y ≠ [] := by
  unfold datePath
  simp only
  generalize civil (t / nsPerSec / 86400) = c
  have hd : ∀ w k, '/' ∉ fmtPad w k := fun w k hm => absurd (fmtPad_digit hm) (by decide)
  have hy : '/' ∉ (if c.1 < 0 then ['-'] else []) ++ fmtPad 4 c.1.natAbs := by
    rw [List.mem_append, not_or]
    exact ⟨by split <;> simp, hd _ _⟩
  obtain ⟨y0, y1, y2⟩ := pad_plain 4 c.1.natAbs (by decide) (if c.1 < 0 then ['-'] else [])
  obtain ⟨m0, m1, m2⟩ := pad_plain 2 c.2.1 (by decide) []
  obtain ⟨d0, d1, d2⟩ := pad_plain 2 c.2.2 (by decide) []
  rw [List.nil_append] at m0 m1 m2 d0 d1 d2
  refine ⟨_, _, _, rfl, ?_, y2, m2, d2, ?_, y0⟩
  · generalize (if c.1 < 0 then ['-'] else []) ++ fmtPad 4 c.1.natAbs = y at hy y0 y1 ⊢
    rw [List.append_assoc, List.cons_append, List.append_assoc, List.cons_append]
    rw [components_slash _ _ hy y0 y1, components_slash _ _ (hd _ _) m0 m1, components_slash _ _ (hd _ _) d0 d1]
  · intro e
    exact hy (List.mem_of_mem_head? e)

/-- C98. Every output file of a run lies below the data directory: three components for the date (C92), then the file's name. -/
theorem C98_files (f : Flags) (cwd dir : List (List Char)) (hdir : DataDir f.output cwd dir) (env : Env) (hdate : ∀ t, env.date t = String.ofList (datePath t))
    (bs : List MessageBlock) (s : Saver) (h : runSaver env bs = some s) (x : Stamped) (hx : x ∈ s.trace) (w : Nat) (n : FileName) (hd : ArchivalRecord)
    (ha : x.act = .openFile w n hd) (hn : '/' ∉ n.uuid.toList) :
    ∃ y m d name, n.path = y ++ '/' :: (m ++ '/' :: (d ++ '/' :: name)) ∧ resolve (workDir f cwd) n.path = dir ++ [y, m, d, name] := by
  have hw : workDir f cwd = dir := by
    unfold workDir
    rcases hdir with ⟨h1, h2⟩ | ⟨h1, h2⟩
    · rw [if_pos h1, h2]
    · rw [if_neg h1, h2]
  obtain ⟨st, -, hdr⟩ := C92_directory env bs s h x hx w n hd ha
  rw [hdate] at hdr
  generalize (if n.sequence = 0 then st else env.wall x.time) = t at hdr
  have hl : n.dir.toList = datePath t := by rw [hdr]; simp
  let name := n.uuid.toList ++ '.' :: (fmtPad 5 n.sequence ++ ".jsonl.zst".toList)
  have hname : '/' ∉ name := by
    have hd : '/' ∉ fmtPad 5 n.sequence := fun hm => absurd (fmtPad_digit hm) (by decide)
    have h2 : '/' ∉ ".jsonl.zst".toList := by decide
    simp only [name, List.mem_append, List.mem_cons, not_or]
    exact ⟨hn, by decide, hd, h2⟩
  have hlong : 2 < name.length := by
    simp only [name, List.length_append, List.length_cons]
    have : ".jsonl.zst".toList.length = 10 := by decide
    omega
  have hpath : n.path = datePath t ++ '/' :: name := by unfold FileName.path; rw [hl]
  obtain ⟨y, m, d, e1, e2, y2, m2, d2, yh, yn⟩ := datePath_components t name
  have hcs : components name = [name] := components_single name hname (by intro e; rw [e] at hlong; simp at hlong) (by intro e; rw [e] at hlong; simp at hlong)
  refine ⟨y, m, d, name, by rw [hpath, e1]; simp, ?_⟩
  rw [hw, hpath]
  rw [hcs] at e2
  rw [resolve_plain, e2]
  · rw [e1]
    cases y with
    | nil => exact absurd rfl yn
    | cons c y => simpa using yh
  · rw [e2]
    simp only [List.mem_cons, not_or]
    refine ⟨fun e => y2 e.symm, fun e => m2 e.symm, fun e => d2 e.symm, fun e => ?_, by simp⟩
    rw [← e] at hlong; simp at hlong

/-- C98. Nothing else is made outside the data directory: the directory itself, the trace in it, and the socket where its name leads from there. -/
theorem C98_places (ok : Act → Bool) (f : Flags) (cwd dir : List (List Char)) (hd : DataDir f.output cwd dir) (a : Act) (ha : a ∈ (start ok f cwd).1) :
    (∀ p, a = .mkdirAll p ∨ a = .chdir p → p = dir ∧ f.output ≠ []) ∧ (∀ p, a = .createTrace p → p = dir ++ ["trace".toList] ∧ f.trace = true)
    ∧ (∀ p, a = .removeSocket p ∨ a = .listen p → p = resolve dir f.socket ∧ f.socket ≠ []) := by
  have hw : workDir f cwd = dir := by
    unfold workDir
    rcases hd with ⟨h1, h2⟩ | ⟨h1, h2⟩
    · rw [if_pos h1, h2]
    · rw [if_neg h1, h2]
  have ht : resolve dir "trace".toList = dir ++ ["trace".toList] := by
    rw [resolve_plain _ _ (by decide) (by decide)]; rfl
  have hsub : ∀ (l : List (Act × Bool)), a ∈ (run ok l).1 → ∃ b, (a, b) ∈ l := by
    intro l
    induction l with
    | nil => simp [run]
    | cons x l ih =>
      obtain ⟨c, b⟩ := x
      unfold run
      split
      · intro h; simp at h; subst h; exact ⟨b, by simp⟩
      · intro h
        rcases List.mem_cons.1 h with rfl | h
        · exact ⟨b, by simp⟩
        · obtain ⟨b', hb⟩ := ih h; exact ⟨b', by simp [hb]⟩
  obtain ⟨b, hb⟩ := hsub _ ha
  unfold acts at hb
  simp only [hw, ht, List.mem_append] at hb
  rcases hb with ((hb | hb) | hb) | hb
  · split at hb
    · rename_i ho
      simp at hb
      rcases hb with ⟨rfl, -⟩ | ⟨rfl, -⟩ <;> refine ⟨?_, by simp, by simp⟩ <;> intro p hp <;> simp at hp <;> exact ⟨hp.symm, ho⟩
    · simp at hb
  · simp at hb; rw [hb.1]; simp
  · split at hb
    · rename_i ho
      simp only [List.mem_cons, Prod.mk.injEq, List.not_mem_nil, or_false] at hb
      rcases hb with ⟨rfl, -⟩ | ⟨rfl, -⟩
      · refine ⟨by simp, ?_, by simp⟩
        intro p hp; injection hp with hp; exact ⟨hp.symm, ho⟩
      · simp
    · simp at hb
  · split at hb
    · rename_i ho
      simp at hb
      rcases hb with ⟨rfl, -⟩ | ⟨rfl, -⟩ | ⟨rfl, -⟩
      · refine ⟨by simp, by simp, ?_⟩
        intro p hp; simp at hp; exact ⟨hp.symm, ho⟩
      · refine ⟨by simp, by simp, ?_⟩
        intro p hp; simp at hp; exact ⟨hp.symm, ho⟩
      · simp
    · simp at hb

/-- C98. A client given the same socket name finds the server (C95 is about the file itself) if the name is absolute; if it is relative (and without `..`),
exactly if the client runs in the server's data directory, wherever the server was started. -/
theorem C98_client (f : Flags) (cwd dir : List (List Char)) (hd : DataDir f.output cwd dir) (clientDir : List (List Char)) :
    (f.socket.head? = some '/' → resolve clientDir f.socket = resolve (workDir f cwd) f.socket)
    ∧ (f.socket.head? ≠ some '/' → ['.', '.'] ∉ components f.socket → (resolve clientDir f.socket = resolve (workDir f cwd) f.socket ↔ clientDir = dir)) := by
  have hw : workDir f cwd = dir := by
    unfold workDir
    rcases hd with ⟨h1, h2⟩ | ⟨h1, h2⟩
    · rw [if_pos h1, h2]
    · rw [if_neg h1, h2]
  rw [hw]
  constructor
  · intro h; unfold resolve; rw [if_pos h, if_pos h]
  · intro h h2
    rw [resolve_plain _ _ h h2, resolve_plain _ _ h h2]
    exact ⟨fun e => List.append_cancel_right e, fun e => by rw [e]⟩

/-- `-output=/data/tcpinfo -tcpinfo.eventsocket=run/tcp.sock -trace` -/
def exFlags : Flags := { output := "/data/tcpinfo".toList, trace := true, socket := "run/tcp.sock".toList }
/-- `/home/u` -/
def exHome : List (List Char) := ["home".toList, "u".toList]
/-- `/data/tcpinfo` -/
def exData : List (List Char) := ["data".toList, "tcpinfo".toList]

example : DataDir exFlags.output exHome exData := Or.inr ⟨by decide, by decide⟩
example : (start (fun _ => true) exFlags exHome).2 = true := by decide
example : start (fun a => !decide (a = .listen (exData ++ ["run".toList, "tcp.sock".toList]))) exFlags exHome
    = ([.mkdirAll exData, .chdir exData, .serveMetrics, .createTrace (exData ++ ["trace".toList]), .startTrace,
        .removeSocket (exData ++ ["run".toList, "tcp.sock".toList]), .listen (exData ++ ["run".toList, "tcp.sock".toList])], false) := by decide
example : resolve exHome "../v/./a//b".toList = ["home".toList, "v".toList, "a".toList, "b".toList] := by decide

/-- C98 violated for relative socket names with `-output`: server and client, both started in /home/u with the same socket name, use different files. -/
theorem C98_violated_relative_socket :
    .listen (exData ++ ["run".toList, "tcp.sock".toList]) ∈ (start (fun _ => true) exFlags exHome).1
    ∧ resolve exHome exFlags.socket = exHome ++ ["run".toList, "tcp.sock".toList] := by decide

end TcpInfo

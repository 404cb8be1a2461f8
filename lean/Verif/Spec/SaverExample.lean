import Verif.Spec.Trace
/-!
# A concrete environment and concrete messages, for examples and counterexamples about the saver
-/

namespace TcpInfo.Spec
open TcpInfo

theorem repr_inj (a b : Nat) (h : toString a = toString b) : a = b := by
  have h' : (toString a).toList = (toString b).toList := by rw [h]
  have e : ∀ n : Nat, (toString n).toList = Nat.toDigits 10 n := fun n => Nat.toList_repr
  rw [e, e] at h'
  have := congrArg (fun l => Nat.ofDigitChars 10 l 0) h'
  simpa [Nat.ofDigitChars_toDigits] using this

/-- An environment where the clock advances by `step` per reading, the wall clock agrees with it (until 2100), file creations succeed except those at the ticks in `bad`. -/
def exEnvWith (step : Int) (bad : List Nat) (marshallers : Nat) : Env :=
  { now := fun n => 1600000000000000000 + step * n
    wall := fun t => t % 4102444800000000000
    createOK := fun n => !bad.contains n
    order := fun _ l => l
    order_perm := fun _ _ => List.Perm.refl _
    view := fun _ r => r
    uuid := fun c => toString c.toNat
    uuid_inj := fun a b h => UInt64.toNat_inj.1 (repr_inj _ _ h)
    date := fun t => toString (t / 86400000000000)
    marshallers := marshallers
    exclude := none }

/-- One second per reading, no failures, three marshallers (as in main.go). -/
def exEnv : Env := exEnvWith 1000000000 [] 3

/-- A TCP connection (family AF_INET, established) with the given cookie byte and attribute bytes. -/
def exMsgA (cookie : UInt8) (attrs : Bytes) : Option NetlinkMessage :=
  some { header := ⟨0, 20, 0, 0, 0⟩
         data := [2, 1, 0, 0] ++ [31, 144, 0, 80] ++ ([10, 1, 2, 3] ++ List.replicate 12 0) ++ ([8, 8, 8, 8] ++ List.replicate 12 0)
           ++ [0, 0, 0, 0] ++ ([cookie] ++ List.replicate 7 0) ++ List.replicate 20 0 ++ attrs }

/-- A complete tcp_info attribute with `x` as low byte of `tcpi_rtt` (68), `sent` as that of `tcpi_bytes_sent` (200). -/
def exInfo (x sent : UInt8) : Bytes :=
  [236, 0, 2, 0] ++ List.replicate 68 (0 : UInt8) ++ [x] ++ List.replicate 131 0 ++ [sent] ++ List.replicate 31 0

/-- A connection with tcp_info. -/
def exMsg (cookie x sent : UInt8) : Option NetlinkMessage := exMsgA cookie (exInfo x sent)

/-- A block with only v4 messages. The v6 dump, 2 ms before, was empty. -/
def exBlock (t : Int) (l : List (Option NetlinkMessage)) : MessageBlock := ⟨t, l, t - 2000000, []⟩

end TcpInfo.Spec

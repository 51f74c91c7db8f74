import Verif.State
import Verif.Instruction
/-!
# Specification vocabulary

The small set of notions in which the properties are stated.  Nothing here refers to the model of
the processor or of the token programs.
-/

namespace TokenWrap

/-- Token balance recorded at an address (0 if there is no token account there). -/
def balanceOf (L : Ledger) (k : Pubkey) : Nat :=
  match (L k).data with
  | .token t => t.amount
  | _ => 0

/-- Supply recorded at an address (0 if there is no mint there). -/
def supplyOf (L : Ledger) (k : Pubkey) : Nat :=
  match (L k).data with
  | .mint m => m.supply
  | _ => 0

/-- Decimals recorded at an address. -/
def decimalsOf (L : Ledger) (k : Pubkey) : Option UInt8 :=
  match (L k).data with
  | .mint m => some m.decimals
  | _ => none

/-- Nothing changed outside the listed addresses. -/
def OnlyChanged (ks : List Pubkey) (L L' : Ledger) : Prop := ∀ k, k ∉ ks → L' k = L k

/-- The fee in force: `newer` from its epoch on, `older` before. -/
def specFeeSchedule (c : TransferFeeConfig) (epoch : Nat) : TransferFee :=
  if epoch < c.newer.epoch then c.older else c.newer

/-- `f` is the fee for transferring `amount` under a schedule entry: the least integer not below
`amount * bps / 10000`, but at most the maximum fee. -/
def IsFee (t : TransferFee) (amount f : Nat) : Prop :=
  (f = t.maximumFee ∧ t.maximumFee * 10000 ≤ amount * t.bps) ∨
  (f ≤ t.maximumFee ∧ amount * t.bps ≤ f * 10000 ∧ (f = 0 ∨ (f - 1) * 10000 < amount * t.bps))

/-- `f` is the transfer fee of mint `m` for `amount` in `epoch`: 0 without the fee extension. -/
def IsMintFee (m : Mint) (epoch amount f : Nat) : Prop :=
  match m.transferFee? with
  | some c => IsFee (specFeeSchedule c epoch) amount f
  | none => f = 0

/-- Everyone who signed, according to an account list. -/
def Signs (accounts : List Meta) (k : Pubkey) : Prop := ∃ m ∈ accounts, m.key = k ∧ m.signer = true

/-- `k` approves in the given state: it signed itself, or it is a multisig of which at least `m`
member positions signed. -/
def Approves (L : Ledger) (accounts : List Meta) (k : Pubkey) : Prop :=
  match (L k).data with
  | .multisig ms => Signs accounts k ∨
      ∃ members : List Pubkey, members.Sublist ms.signers ∧ ms.m ≤ members.length ∧
        ∀ s ∈ members, Signs accounts s
  | _ => Signs accounts k

/-- `k` approves if exactly the keys in `S` sign: it signs itself, or it is a multisig of which at
least `m` member positions sign. -/
def ApprovesBy (L : Ledger) (S : Pubkey → Prop) (k : Pubkey) : Prop :=
  S k ∨ ∃ (ms : Multisig) (members : List Pubkey), (L k).data = .multisig ms ∧ members.Sublist ms.signers ∧
    ms.m ≤ members.length ∧ ∀ x ∈ members, S x

end TokenWrap

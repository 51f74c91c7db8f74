import Verif.Pda
/-!
# Account contents and the ledger

Account data is modelled at the level at which the program reads it: `Data.bytes` is raw data (the
program's own 32-byte state is raw, exactly as on chain), the other constructors are the parsed
contents of token-program and Metaplex accounts (`PodStateWithExtensions::unpack` succeeds exactly
on the corresponding constructor).
-/

namespace TokenWrap

/-! ## Token-program state (spl-token-2022-interface `state`, `pod`, `extension`) -/

/-- `extension::transfer_fee::TransferFee`. Amounts are naturals; see `TransferFee.wf`. -/
structure TransferFee where
  epoch : Nat
  maximumFee : Nat
  bps : Nat
deriving DecidableEq, Repr

/-- `extension::transfer_fee::TransferFeeConfig`. -/
structure TransferFeeConfig where
  authority : Option Pubkey
  withdrawAuthority : Option Pubkey
  withheld : Nat
  older : TransferFee
  newer : TransferFee
deriving DecidableEq, Repr

/-- `spl_token_metadata_interface::state::TokenMetadata`. -/
structure TokenMetadata where
  updateAuthority : Option Pubkey
  mint : Pubkey
  name : String
  symbol : String
  uri : String
  additional : List (String × String)
deriving DecidableEq, Repr

/-- Mint extensions (`ExtensionType` of mints with their contents).  `other n` stands for any
extension type the model does not interpret. -/
inductive MintExt
  | transferFeeConfig (c : TransferFeeConfig)
  | mintCloseAuthority (a : Option Pubkey)
  | confidentialTransferMint (authority : Option Pubkey) (autoApprove : Bool)
      (auditor : Option Pubkey)
  | defaultAccountState (frozen : Bool)
  | nonTransferable
  | permanentDelegate (d : Option Pubkey)
  | transferHook (authority program : Option Pubkey)
  | metadataPointer (authority address : Option Pubkey)
  | tokenMetadata (md : TokenMetadata)
  | pausable (authority : Option Pubkey) (paused : Bool)
  | other (code : Nat)
deriving DecidableEq, Repr

/-- Token-account extension types. -/
inductive AcctExt
  | transferFeeAmount | nonTransferableAccount | immutableOwner | transferHookAccount
  | pausableAccount | memoTransfer | cpiGuard | confidentialTransferAccount
  | confidentialTransferFeeAmount
  | other (code : Nat)
deriving DecidableEq, Repr

/-- `PodMint` plus its extensions in TLV order. -/
structure Mint where
  mintAuthority : Option Pubkey
  supply : Nat
  decimals : UInt8
  freezeAuthority : Option Pubkey
  exts : List MintExt
deriving DecidableEq, Repr

/-- `PodAccount` plus its extension types in TLV order; `frozen` is
`state == AccountState::Frozen`, `withheld` the contents of `TransferFeeAmount`, `confidential` the
(encrypted) balance of a `ConfidentialTransferAccount` extension, as a ghost number. -/
structure TokenAcct where
  mint : Pubkey
  owner : Pubkey
  amount : Nat
  delegate : Option Pubkey
  delegatedAmount : Nat
  frozen : Bool
  isNative : Option Nat
  closeAuthority : Option Pubkey
  exts : List AcctExt
  withheld : Nat
  confidential : Nat
deriving DecidableEq, Repr

/-- `state::Multisig`: `m` of `signers` (n = length). -/
structure Multisig where
  m : Nat
  signers : List Pubkey
deriving DecidableEq, Repr

/-! ## Metaplex state (mpl-token-metadata `accounts::Metadata`, `types`) -/

/-- `types::Creator`. -/
structure Creator where
  address : Pubkey
  verified : Bool
  share : UInt8
deriving DecidableEq, Repr

/-- `types::Collection`. -/
structure Collection where
  verified : Bool
  key : Pubkey
deriving DecidableEq, Repr

/-- `types::UseMethod`. -/
inductive UseMethod
  | burn | multiple | single
deriving DecidableEq, Repr

/-- `types::Uses`. -/
structure Uses where
  useMethod : UseMethod
  remaining : UInt64
  total : UInt64
deriving DecidableEq, Repr

/-- `types::TokenStandard`. -/
inductive TokenStandard
  | nonFungible | fungibleAsset | fungible | nonFungibleEdition | programmableNonFungible
  | programmableNonFungibleEdition
deriving DecidableEq, Repr

/-- `types::CollectionDetails`. -/
inductive CollectionDetails
  | v1 (size : UInt64)
  | v2 (padding : List UInt8)
deriving DecidableEq, Repr

/-- `types::ProgrammableConfig`. -/
inductive ProgrammableConfig
  | v1 (ruleSet : Option Pubkey)
deriving DecidableEq, Repr

/-- `accounts::Metadata`; the `key` discriminator is its enum index. -/
structure MetaplexMetadata where
  key : Nat
  updateAuthority : Pubkey
  mint : Pubkey
  name : String
  symbol : String
  uri : String
  sellerFeeBasisPoints : UInt16
  creators : Option (List Creator)
  primarySaleHappened : Bool
  isMutable : Bool
  editionNonce : Option UInt8
  tokenStandard : Option TokenStandard
  collection : Option Collection
  uses : Option Uses
  collectionDetails : Option CollectionDetails
  programmableConfig : Option ProgrammableConfig
deriving DecidableEq, Repr

/-- `types::DataV2`. -/
structure DataV2 where
  name : String
  symbol : String
  uri : String
  sellerFeeBasisPoints : UInt16
  creators : Option (List Creator)
  collection : Option Collection
  uses : Option Uses
deriving DecidableEq, Repr

/-! ## Accounts and ledger -/

/-- Account data. `preMint space exts` is an allocated, not yet initialised mint whose listed
extensions have been initialised. -/
inductive Data
  | bytes (b : Bytes)
  | preMint (space : Nat) (exts : List MintExt)
  | mint (m : Mint)
  | token (t : TokenAcct)
  | multisig (ms : Multisig)
  | metaplex (md : MetaplexMetadata)
deriving DecidableEq, Repr

/-- `TokenMetadata::tlv_size_of` minus its header, that is, the Borsh length of the value: two keys
(32 bytes each), three strings and a vector of pairs of strings (4 bytes of length each). -/
def TokenMetadata.packedLen (md : TokenMetadata) : Nat :=
  80 + md.name.utf8ByteSize + md.symbol.utf8ByteSize + md.uri.utf8ByteSize +
    (md.additional.map fun p => 8 + p.1.utf8ByteSize + p.2.utf8ByteSize).sum

/-- TLV value length of the mint extensions the model does not interpret, by number: interest-bearing
(10), confidential transfer fee (16), group pointer (20), group (21), group member pointer (22), group
member (23), confidential mint-burn (24), scaled UI amount (25). -/
def otherExtLen (code : Nat) : Nat :=
  match code with
  | 10 => 52 | 16 => 129 | 20 => 64 | 21 => 80 | 22 => 64 | 23 => 72 | 24 => 196 | 25 => 56 | _ => 0

/-- TLV value length of each mint extension (spl-token-2022-interface). -/
def MintExt.valueLen : MintExt → Nat
  | .transferFeeConfig _ => 108
  | .mintCloseAuthority _ => 32
  | .confidentialTransferMint .. => 65
  | .defaultAccountState _ => 1
  | .nonTransferable => 0
  | .permanentDelegate _ => 32
  | .transferHook .. => 64
  | .metadataPointer .. => 64
  | .tokenMetadata md => md.packedLen
  | .pausable .. => 33
  | .other c => otherExtLen c

/-- `ExtensionType::try_calculate_account_len::<Mint>`: 82 bytes without extensions; otherwise the
165-byte base padding, one account-type byte and 4+len bytes per extension, avoiding the length 355
of a multisig. -/
def mintAccountLen (lens : List Nat) : Nat :=
  if lens = [] then 82
  else
    let total := 166 + (lens.map (· + 4)).sum
    if total = 355 then total + 2 else total

/-- TLV value length of each account extension (spl-token-2022-interface: `TransferFeeAmount` 8,
`TransferHookAccount`, `MemoTransfer` and `CpiGuard` 1, `ConfidentialTransferAccount` 295,
`ConfidentialTransferFeeAmount` 64, the markers 0).  Extensions outside the model are given length 0. -/
def AcctExt.valueLen : AcctExt → Nat
  | .transferFeeAmount => 8
  | .nonTransferableAccount => 0
  | .immutableOwner => 0
  | .transferHookAccount => 1
  | .pausableAccount => 0
  | .memoTransfer => 1
  | .cpiGuard => 1
  | .confidentialTransferAccount => 295
  | .confidentialTransferFeeAmount => 64
  | .other _ => 0

/-- `ExtensionType::try_calculate_account_len::<Account>`: 165 bytes without extensions, otherwise as
`mintAccountLen`. -/
def tokenAccountLen (exts : List AcctExt) : Nat :=
  if exts = [] then 165
  else
    let total := 166 + (exts.map fun e => e.valueLen + 4).sum
    if total = 355 then total + 2 else total

theorem tokenAccountLen_ge (exts : List AcctExt) : 165 ≤ tokenAccountLen exts := by
  unfold tokenAccountLen
  split
  · exact Nat.le_refl _
  · dsimp only
    split <;> omega

/-- Data of this length can become a token account with these extensions: SPL Token wants exactly 165
bytes; Token-2022 wants room for the extensions and rejects the length of a multisig. -/
def roomFor (prog : Pubkey) (exts : List AcctExt) (n : Nat) : Bool :=
  if prog = token2022Id then decide (tokenAccountLen exts ≤ n) && decide (n ≠ 355) else decide (n = 165)

theorem roomFor_ge {prog : Pubkey} {exts : List AcctExt} {n : Nat} (h : roomFor prog exts n = true) :
    165 ≤ n := by
  unfold roomFor at h
  split at h
  · simp only [Bool.and_eq_true, decide_eq_true_eq] at h
    exact Nat.le_trans (tokenAccountLen_ge _) h.1
  · exact Nat.le_of_eq (of_decide_eq_true h).symm

theorem tokenAccountLen_ne (exts : List AcctExt) : tokenAccountLen exts ≠ 355 := by
  unfold tokenAccountLen
  split
  · decide
  · dsimp only
    split <;> omega

/-- Length of account data (`AccountInfo::data_len`).  Only raw lengths and "is it empty" matter to
the program; parsed accounts are never empty. -/
def Data.len : Data → Nat
  | .bytes b => b.length
  | .preMint space _ => space
  | .mint m => mintAccountLen (m.exts.map MintExt.valueLen)
  | .token t => tokenAccountLen t.exts
  | .multisig _ => 355
  | .metaplex _ => 679

/-- An account as the runtime sees it. -/
structure Account where
  lamports : Nat
  owner : Pubkey
  data : Data
deriving DecidableEq, Repr

/-- The account found at an address nobody ever touched. -/
def Account.empty : Account := ⟨0, systemId, .bytes []⟩

/-- The ledger: one account per address. -/
abbrev Ledger := Pubkey → Account

/-- Replace one account. -/
def Ledger.set (L : Ledger) (k : Pubkey) (a : Account) : Ledger :=
  fun x => if x = k then a else L x

@[simp] theorem Ledger.set_same (L : Ledger) (k : Pubkey) (a : Account) : L.set k a k = a := by
  simp [Ledger.set]

theorem Ledger.set_ne (L : Ledger) {k x : Pubkey} (a : Account) (h : x ≠ k) :
    L.set k a x = L x := by
  simp [Ledger.set, h]

theorem Ledger.set_apply (L : Ledger) (k x : Pubkey) (a : Account) :
    L.set k a x = if x = k then a else L x := rfl

theorem Ledger.set_self (L : Ledger) (k : Pubkey) : L.set k (L k) = L := by
  funext x; simp only [Ledger.set]; split
  · rename_i h; rw [h]
  · rfl

/-- Replace only the data of an account. -/
def Ledger.setData (L : Ledger) (k : Pubkey) (d : Data) : Ledger :=
  L.set k { L k with data := d }

/-- Replace only the lamports of an account. -/
def Ledger.setLamports (L : Ledger) (k : Pubkey) (n : Nat) : Ledger :=
  L.set k { L k with lamports := n }

@[simp] theorem Ledger.setData_same (L : Ledger) (k : Pubkey) (d : Data) :
    L.setData k d k = { L k with data := d } := by simp [Ledger.setData]

theorem Ledger.setData_ne (L : Ledger) {k x : Pubkey} (d : Data) (h : x ≠ k) :
    L.setData k d x = L x := by simp [Ledger.setData, Ledger.set, h]

theorem Ledger.setData_apply (L : Ledger) (k x : Pubkey) (d : Data) :
    L.setData k d x = if x = k then { L k with data := d } else L x := rfl

@[simp] theorem Ledger.setLamports_same (L : Ledger) (k : Pubkey) (n : Nat) :
    L.setLamports k n k = { L k with lamports := n } := by simp [Ledger.setLamports]

theorem Ledger.setLamports_ne (L : Ledger) {k x : Pubkey} (n : Nat) (h : x ≠ k) :
    L.setLamports k n x = L x := by simp [Ledger.setLamports, Ledger.set, h]

theorem Ledger.setLamports_apply (L : Ledger) (k x : Pubkey) (n : Nat) :
    L.setLamports k n x = if x = k then { L k with lamports := n } else L x := rfl

/-! ## Parsing -/

/-- `data[off..off + n]`. -/
def slice (b : Bytes) (off n : Nat) : Bytes := (b.drop off).take n

/-- `PodStateWithExtensions::<S>::unpack` (spl-token-2022-interface `extension/mod.rs`, external) on bytes,
for a base state of `size` bytes whose initialisation byte (at `off`) satisfies `init` and whose account
type is `kind`; returns the TLV data.  Minimal length, not the length of a multisig; initialised; then
either nothing follows, or zeros up to offset 165, the account type, and the TLV data. -/
def podUnpack (size off : Nat) (init : UInt8 → Bool) (kind : UInt8) (b : Bytes) : Res Bytes :=
  if b.length < size ∨ b.length = 355 then .error .invalidAccountData
  else if init (b[off]?.getD 0) = false then .error .uninitializedAccount
  else if b.length = size then .ok []
  else if b.length < 166 ∨ slice b size (165 - size) ≠ List.replicate (165 - size) 0 ∨
      b[165]? ≠ some kind then .error .invalidAccountData
  else .ok (b.drop 166)

/-- `PodStateWithExtensions::<PodMint>::unpack`: 82 bytes, `is_initialized` at 45, `AccountType::Mint`. -/
def podMint (b : Bytes) : Res Bytes := podUnpack 82 45 (fun x => x ≠ 0) 1 b

/-- `PodStateWithExtensions::<PodAccount>::unpack`: 165 bytes, `state` at 108 (initialised 1, frozen 2),
`AccountType::Account`. -/
def podAccount (b : Bytes) : Res Bytes := podUnpack 165 108 (fun x => x = 1 || x = 2) 2 b

/-- The error of a parse that fails. -/
def podErr (r : Res Bytes) : Err :=
  match r with
  | .error e => e
  | .ok _ => .invalidAccountData

/-- `PodStateWithExtensions::<PodAccount>::unpack(&account.data)`: succeeds exactly on token accounts.
The errors on other contents are those of the bytes: an allocated but uninitialised mint and an extended
mint have a zero byte at offset 108.  `Props/Layout.lean` proves that these are the answers on the bytes
(`Data.bytes` stands for bytes that do not parse; Metaplex contents simplified to `InvalidAccountData`). -/
def unpackToken (d : Data) : Res TokenAcct :=
  match d with
  | .token t => .ok t
  | .bytes b => .error (podErr (podAccount b))
  | .preMint space _ => .error (if 165 ≤ space ∧ space ≠ 355 then .uninitializedAccount else .invalidAccountData)
  | .mint m => .error (if m.exts = [] then .invalidAccountData else .uninitializedAccount)
  | _ => .error .invalidAccountData

/-- `PodStateWithExtensions::<PodMint>::unpack(&account.data)`, likewise; byte 45 of a token account is
byte 13 of its owner. -/
def unpackMint (d : Data) : Res Mint :=
  match d with
  | .mint m => .ok m
  | .bytes b => .error (podErr (podMint b))
  | .preMint space _ => .error (if 82 ≤ space ∧ space ≠ 355 then .uninitializedAccount else .invalidAccountData)
  | .token t => .error (if t.owner.bytes[13]? = some 0 then .uninitializedAccount else .invalidAccountData)
  | _ => .error .invalidAccountData

theorem podErr_podUnpack (size off : Nat) (init : UInt8 → Bool) (kind : UInt8) (b : Bytes) :
    podErr (podUnpack size off init kind b) = .invalidAccountData ∨
      podErr (podUnpack size off init kind b) = .uninitializedAccount := by
  unfold podUnpack
  repeat' split
  all_goals simp [podErr]

/-- Contents that are not a token account: one of two errors. -/
theorem unpackToken_error {d : Data} (h : ∀ t, d ≠ .token t) :
    unpackToken d = .error .invalidAccountData ∨ unpackToken d = .error .uninitializedAccount := by
  cases d with
  | token t => exact absurd rfl (h t)
  | bytes b =>
    rcases podErr_podUnpack 165 108 (fun x => x = 1 || x = 2) 2 b with e | e
    · exact .inl (congrArg Except.error e)
    · exact .inr (congrArg Except.error e)
  | preMint n l => simp only [unpackToken]; split <;> simp
  | mint m => simp only [unpackToken]; split <;> simp
  | multisig => exact .inl rfl
  | metaplex => exact .inl rfl

/-- Contents that are not a mint: one of two errors. -/
theorem unpackMint_error {d : Data} (h : ∀ m, d ≠ .mint m) :
    unpackMint d = .error .invalidAccountData ∨ unpackMint d = .error .uninitializedAccount := by
  cases d with
  | mint m => exact absurd rfl (h m)
  | bytes b =>
    rcases podErr_podUnpack 82 45 (fun x => x ≠ 0) 1 b with e | e
    · exact .inl (congrArg Except.error e)
    · exact .inr (congrArg Except.error e)
  | preMint n l => simp only [unpackMint]; split <;> simp
  | token m => simp only [unpackMint]; split <;> simp
  | multisig => exact .inl rfl
  | metaplex => exact .inl rfl

@[simp] theorem unpackToken_ok_iff {d : Data} {t : TokenAcct} :
    unpackToken d = .ok t ↔ d = .token t := by
  unfold unpackToken; split <;> simp_all

@[simp] theorem unpackMint_ok_iff {d : Data} {m : Mint} :
    unpackMint d = .ok m ↔ d = .mint m := by
  unfold unpackMint; split <;> simp_all

/-! ## Extension lookup (`get_extension`) -/

/-- `get_extension::<TransferFeeConfig>().ok()`. -/
def Mint.transferFee? (m : Mint) : Option TransferFeeConfig :=
  m.exts.findSome? fun | .transferFeeConfig c => some c | _ => none

/-- The permanent delegate of a mint, if the extension is present and set. -/
def Mint.permanentDelegate? (m : Mint) : Option Pubkey :=
  (m.exts.findSome? fun | .permanentDelegate d => some d | _ => none).join

/-- `get_extension::<MetadataPointer>().ok()`: the pointer's (authority, address). -/
def Mint.metadataPointer? (m : Mint) : Option (Option Pubkey × Option Pubkey) :=
  m.exts.findSome? fun | .metadataPointer a p => some (a, p) | _ => none

/-- `get_variable_len_extension::<TokenMetadata>().ok()`. -/
def Mint.tokenMetadata? (m : Mint) : Option TokenMetadata :=
  m.exts.findSome? fun | .tokenMetadata md => some md | _ => none

/-- The mint close authority, if the extension is present and set. -/
def Mint.closeAuthority? (m : Mint) : Option Pubkey :=
  (m.exts.findSome? fun | .mintCloseAuthority d => some d | _ => none).join

/-! ## Transfer fees (spl-token-2022-interface `extension/transfer_fee/mod.rs`) -/

/-- `TransferFee::calculate_fee`: ceil(amount * bps / 10000) capped at the maximum; `none` if the
uncapped fee does not fit in a u64. -/
def TransferFee.calculateFee (f : TransferFee) (amount : Nat) : Option Nat :=
  if f.bps = 0 ∨ amount = 0 then some 0
  else
    let raw := (amount * f.bps + 9999) / 10000
    if raw ≤ u64Max then some (min raw f.maximumFee) else none

/-- `TransferFeeConfig::get_epoch_fee`. -/
def TransferFeeConfig.epochFee (c : TransferFeeConfig) (epoch : Nat) : TransferFee :=
  if c.newer.epoch ≤ epoch then c.newer else c.older

/-- `TransferFeeConfig::calculate_epoch_fee`. -/
def TransferFeeConfig.calculateEpochFee (c : TransferFeeConfig) (epoch amount : Nat) : Option Nat :=
  (c.epochFee epoch).calculateFee amount

/-! ## Required account extensions -/

/-- `ExtensionType::get_required_init_account_extensions` for one mint extension. -/
def MintExt.requiredAccountExts : MintExt → List AcctExt
  | .transferFeeConfig _ => [.transferFeeAmount]
  | .nonTransferable => [.nonTransferableAccount, .immutableOwner]
  | .transferHook .. => [.transferHookAccount]
  | .pausable .. => [.pausableAccount]
  | _ => []

/-- What `try_for_each_required_init_account_extension` visits, in TLV order. -/
def Mint.requiredAccountExts (m : Mint) : List AcctExt :=
  m.exts.flatMap MintExt.requiredAccountExts

end TokenWrap

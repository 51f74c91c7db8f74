import Verif.Runtime
/-!
# Model of /repo/program/src/mint_customizer/
-/

namespace TokenWrap

/-- `trait MintCustomizer`: /repo/program/src/mint_customizer/interface.rs:8-27.
`initializeExtensions env caller wrappedMint wrappedTokenProgram` performs the CPIs. -/
structure Customizer where
  token2022MintSpace : Res Nat
  initializeExtensions : Env → List Meta → Pubkey → Pubkey → Ledger → Res Ledger
  freezeAuthAndDecimals : Data → Res (Option Pubkey × UInt8)

/-- Copy freeze authority and decimals of the unwrapped mint:
/repo/program/src/mint_customizer/default_token_2022.rs:64-74, no_extensions.rs:22-31. -/
def copyFreezeAndDecimals (d : Data) : Res (Option Pubkey × UInt8) := do
  let m ← unpackMint d
  pure (m.freezeAuthority, m.decimals)

/-- `DefaultToken2022Customizer`: /repo/program/src/mint_customizer/default_token_2022.rs:19-75.
Its mint size covers ConfidentialTransferMint (65 bytes) and MetadataPointer (64 bytes). -/
def defaultToken2022Customizer : Customizer where
  token2022MintSpace := .ok (mintAccountLen [65, 64])
  initializeExtensions env caller wrappedMint wrappedTokenProgram L := do
    let L1 ← invokeToken env caller [] [] wrappedTokenProgram
      (.initMintExt wrappedMint (.confidentialTransferMint none true none)) L
    let authority ← okOr (authorityAddress env.cr wrappedMint) .panicked
    invokeToken env caller [] [] wrappedTokenProgram
      (.initMintExt wrappedMint (.metadataPointer (some authority) (some wrappedMint))) L1
  freezeAuthAndDecimals := copyFreezeAndDecimals

/-- `NoExtensionCustomizer`: /repo/program/src/mint_customizer/no_extensions.rs:14-32. -/
def noExtensionCustomizer : Customizer where
  token2022MintSpace := .ok (mintAccountLen [])
  initializeExtensions _ _ _ _ L := .ok L
  freezeAuthAndDecimals := copyFreezeAndDecimals

/-- `PERMANENT_DELEGATE`: /repo/program/src/mint_customizer/compliance.rs:31-32. -/
def compliancePermanentDelegate : Pubkey := ⟨[9, 99, 33, 164, 238, 242, 45, 98, 139, 124, 182, 149, 19, 29, 207, 181, 38, 139, 161, 29, 251, 178, 131, 189, 81, 237, 121, 233, 36, 88, 2, 60], rfl⟩
/-- `CONFIDENTIAL_TRANSFER_AUTHORITY`: /repo/program/src/mint_customizer/compliance.rs:35-36. -/
def complianceConfidentialAuthority : Pubkey := ⟨[9, 44, 55, 237, 205, 119, 225, 221, 57, 59, 155, 41, 22, 171, 6, 204, 237, 138, 17, 138, 42, 53, 20, 238, 182, 226, 64, 212, 42, 142, 197, 188], rfl⟩
/-- `AUDITOR_ELGAMAL_PUBKEY_B64`, decoded: /repo/program/src/mint_customizer/compliance.rs:39. -/
def complianceAuditor : Pubkey := ⟨[202, 137, 202, 134, 169, 40, 92, 219, 204, 108, 223, 237, 83, 167, 227, 28, 88, 95, 102, 227, 79, 166, 243, 35, 240, 190, 121, 104, 253, 155, 4, 110], rfl⟩
/-- `FREEZE_AUTHORITY`: /repo/program/src/mint_customizer/compliance.rs:42-43. -/
def complianceFreezeAuthority : Pubkey := ⟨[9, 244, 52, 149, 217, 150, 176, 51, 103, 208, 185, 200, 50, 242, 85, 185, 161, 24, 14, 226, 130, 29, 54, 180, 153, 132, 68, 121, 233, 221, 29, 4], rfl⟩
/-- `PAUSE_AUTHORITY`: /repo/program/src/mint_customizer/compliance.rs:46-47. -/
def compliancePauseAuthority : Pubkey := ⟨[12, 48, 164, 217, 251, 144, 58, 192, 211, 177, 176, 186, 137, 212, 54, 58, 108, 204, 152, 159, 170, 167, 232, 244, 239, 94, 175, 36, 90, 231, 107, 75], rfl⟩

/-- `ComplianceMintCustomizer`: /repo/program/src/mint_customizer/compliance.rs:49-128.
Simplification: decoding the base64 auditor key cannot fail (it is a constant). -/
def complianceCustomizer : Customizer where
  token2022MintSpace := .ok (mintAccountLen [32, 1, 65, 33])
  initializeExtensions env caller wrappedMint wrappedTokenProgram L := do
    let L1 ← invokeToken env caller [] [] wrappedTokenProgram
      (.initMintExt wrappedMint (.permanentDelegate (some compliancePermanentDelegate))) L
    let L2 ← invokeToken env caller [] [] wrappedTokenProgram
      (.initMintExt wrappedMint (.confidentialTransferMint (some complianceConfidentialAuthority)
        true (some complianceAuditor))) L1
    let L3 ← invokeToken env caller [] [] wrappedTokenProgram
      (.initMintExt wrappedMint (.defaultAccountState false)) L2
    invokeToken env caller [] [] wrappedTokenProgram
      (.initMintExt wrappedMint (.pausable (some compliancePauseAuthority) false)) L3
  freezeAuthAndDecimals d := do
    let m ← unpackMint d
    pure (some complianceFreezeAuthority, m.decimals)

end TokenWrap

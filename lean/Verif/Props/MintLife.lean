import Verif.MintLife
import Verif.Props.Conserve
/-!
# The unwrapped mint while tokens are escrowed (C70)

A Token-2022 mint with a close authority can be closed and re-created with other decimals
(`decimals_can_diverge` in Props/Decimals.lean), but not while anybody's tokens are in escrow.
-/

set_option linter.unusedSimpArgs false

namespace TokenWrap

section
variable {cr : Crypto} {s : Setting cr} {ok : Act → Ledger → Prop} {L0 L L' : Ledger} {trace : List Act}
  {act : Act} {env : Env}

/-- **C71** No instruction of Token Wrap, with whatever accounts and data, removes a mint, gives it to
another program, or changes its decimals, mint authority, freeze authority or any extension except
token metadata: only supply and metadata can differ.  This holds for every mint: unwrapped, wrapped or
neither. -/
theorem token_wrap_keeps_mints {accounts : List Meta} {data : Bytes} {k : Pubkey} {m : Mint}
    (hid : env.programId = crateId)
    (ho : (L k).owner = splTokenId ∨ (L k).owner = token2022Id) (hm : (L k).data = .mint m)
    (hx : processInstruction env accounts data L = .ok L') :
    (L' k).owner = (L k).owner ∧ ∃ m', (L' k).data = .mint m' ∧ m'.decimals = m.decimals ∧
      m'.mintAuthority = m.mintAuthority ∧ m'.freezeAuthority = m.freezeAuthority ∧
      (m'.exts.filter fun | .tokenMetadata _ => false | _ => true) =
        m.exts.filter fun | .tokenMetadata _ => false | _ => true :=
  instr_mintUpTo hid (by simpa [isTokenProgram] using ho) hm hx

/-- **C71** A mint that is not at the wrapped-mint address of any pair, so in particular every ordinary
unwrapped mint, is not changed at all. -/
theorem token_wrap_keeps_unwrapped_mints {accounts : List Meta} {data : Bytes} {k : Pubkey} {m : Mint}
    (hid : env.programId = crateId)
    (ho : (L k).owner = splTokenId ∨ (L k).owner = token2022Id) (hm : (L k).data = .mint m)
    (hk : ∀ u p, wrappedMintAddress env.cr u p ≠ some k)
    (hx : processInstruction env accounts data L = .ok L') :
    (L' k).owner = (L k).owner ∧ (L' k).data = .mint m := by
  obtain ⟨h1, h2⟩ := instr_mintKept hid (by simpa [isTokenProgram] using ho) hm hk hx
  exact ⟨h1, h2.trans hm⟩

theorem IsMint.run {bk : Bk} {p : Pubkey} {dec : UInt8} (hb : bk) (hu : s.u ∉ nativeMints)
    (h : IsMint p s.u dec L) (hc : ConsFunds s.u L) (hi : Inv bk s L)
    (pos : 0 < balanceOf L s.Es + balanceOf L s.Et)
    (hok : ∀ act L, ok act L → PDIdle cr s.u act L ∧ AllFunded L) (hr : Run cr ok L L') :
    IsMint p s.u dec L' := by
  induction hr with
  | refl => exact h
  | step h1 h2 _ ih =>
    have sf := baseStep_safe hi (fun _ => (hok _ _ h1).1) (hok _ _ h1).2 h2
    have e1 := hi.es.le_tokensAt (by decide +kernel)
    have e2 := hi.et.le_tokensAt (by decide +kernel)
    have e3 := hc.1.pair_le s.Es_ne_Et
    have e4 := sf.es hb
    have e5 := sf.et hb
    exact ih (h.baseStep (by omega) hc.2.all h2) (hc.baseStep hu h2) sf.inv (by omega)

theorem escrowed_mint_stays_aux {p : Pubkey} {dec : UInt8} (h0 : Fresh s L0) (hu : s.u ∉ nativeMints)
    (hc : Conserved s.u L0) (h : History cr ok L0 trace L) (hk : PDIdle cr s.u act L)
    (hs : Step cr (PDIdle cr s.u) act L L') (pos : 0 < balanceOf L s.Es + balanceOf L s.Et)
    (hm : IsMint p s.u dec L) : IsMint p s.u dec L' := by
  have hcf : ConsFunds s.u L := .history hu ⟨hc, h0.funds⟩ h
  have hi := (h.inv' h0).short
  have hsup := escrowed_within_unwrapped_supply h0 hu hc h
  have hs' := hs.funded hcf.2
  clear hs
  cases hs' with
  | base hb => exact hm.baseStep (by omega) hcf.2.all hb
  | wrapHooked hcr hid hsg hhook hw hr =>
    rename_i env accounts amount hook
    obtain ⟨a, m, L1, pda, c⟩ := processWrapHooked_inv hw
    have sf : Safe (.short (supplyOf L s.W)) s L L1 :=
      wrapTransfer_safe hi (fun _ => hk) (fun _ h => .inl h) hsg c.transfer
    obtain ⟨t, d, t', tr⟩ := wrapTransfer_inv c.uMint c.transfer
    have hm1 : IsMint p s.u dec L1 := by
      obtain ⟨_, _, m, hmd, _⟩ := id hm
      exact hm.kept (.of_eq (tr.moved.mint tr.srcData tr.escData hmd))
    have e4 := sf.es trivial
    have e5 := sf.et trivial
    have hm2 : IsMint p s.u dec (hook L1) :=
      hm1.run (bk := .short (supplyOf L s.W)) trivial hu (hcf.wrapTransfer hu hr c.transfer) sf.inv
        (by omega) (fun _ _ h => ⟨h.1, h.2.all⟩) (hhook L1)
    obtain ⟨w, r, mt⟩ := mintTo_cpi c.mintTo
    obtain ⟨_, _, m2, hmd2, _⟩ := id hm2
    exact (mt.mint hmd2).isMint hmd2 hm2
  | tokenWrap _ hid _ hx _ =>
    obtain ⟨_, _, m, hmd, _⟩ := id hm
    exact (instr_mintUpTo hid (by rw [hm.2.1]; exact hm.1) hmd hx).isMint hmd hm

/-- **C70** In every history, while tokens are in escrow, the unwrapped mint exists and no step (in
which no permanent delegate acts) removes it, moves it to another program or changes its decimals,
even if it has a close authority.  Nothing is assumed about the mint except that its supply adds up. -/
theorem unwrapped_mint_stays_while_escrowed (h0 : Fresh s L0)
    (hc : s.u ∈ nativeMints ∨ Conserved s.u L0) (h : History cr ok L0 trace L)
    (hk : PDIdle cr s.u act L) (hs : Step cr (PDIdle cr s.u) act L L')
    (pos : 0 < balanceOf L s.Es + balanceOf L s.Et) :
    ((L s.u).owner = splTokenId ∨ (L s.u).owner = token2022Id) ∧ (L' s.u).owner = (L s.u).owner ∧
    ∃ m m', (L s.u).data = .mint m ∧ (L' s.u).data = .mint m' ∧ m'.decimals = m.decimals := by
  have hf := h.funds h0.funds
  by_cases hn : s.u ∈ nativeMints
  · obtain ⟨p, dec, hx⟩ := hf.native s.u hn
    have hx' := hx.step hf hs
    obtain ⟨m, h1, h2, _⟩ := hx.mint
    obtain ⟨m', h1', h2', _⟩ := hx'.mint
    exact ⟨by rw [hx.owner]; exact hx.prog, hx'.owner.trans hx.owner.symm, m, m', h1, h1', h2'.trans h2.symm⟩
  · have hc : Conserved s.u L0 := hc.resolve_left hn
    have hsup := escrowed_within_unwrapped_supply h0 hn hc h
    obtain ⟨m, ho, hm, _⟩ := mint_of_supply (L := L) (u := s.u) (by omega)
    have hm' : IsMint (L s.u).owner s.u m.decimals L := ⟨ho, rfl, m, hm, rfl⟩
    obtain ⟨_, ho', m', hm'', hd⟩ := escrowed_mint_stays_aux h0 hn hc h hk hs pos hm'
    exact ⟨by simpa [isTokenProgram] using ho, ho', m, m', hm, hm'', hd⟩

end

end TokenWrap

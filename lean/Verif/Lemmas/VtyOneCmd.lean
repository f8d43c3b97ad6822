import Verif.Lemmas.VtyOne
/-!
# One command: every command
-/

namespace Verif.Vty

set_option maxRecDepth 8000
set_option linter.unusedSimpArgs false
set_option linter.unusedVariables false

/-- A command that changes nothing. -/
theorem claim_same {c : Cfg} {l : Line} (h : ∀ old, expected l old = old) : Claim c l c :=
  ⟨fun _ _ _ => rfl, fun _ => (h _).symm⟩

macro "about" : tactic => `(tactic| simp [subject, nameOf, groups, key])
macro "rest" : tactic => `(tactic| (intro s _ hs; cases s <;> first | rfl | exact absurd rfl hs))
macro "own" "[" ls:Lean.Parser.Tactic.simpLemma,* "]" : tactic => `(tactic| simp [seg, unless0, wCs, wCsMax, wAdj, wDowngrade, wMcs, wMcsMax, wArq, wCodel, wAlgo, wCsLq,
  wMcsLq, wWs, expected, expectNo, expectSet, atoi, u8, u16, u32, second, streq, codelDefault, codelDisable, sockDefault, $ls,*])

theorem cmd1 {c c' : Cfg} {l : Line} {a : List Tok} (k : Cmd) (hk : cmds[1]? = some k) (hf : shape k.pat l a)
    (h : k.run c a = some c') : Claim c l c' := by
  obtain rfl := Option.some.inj hk
  clear hk
  obtain ⟨_, rfl, _, rfl, rfl, rfl⟩ := hf
  injection h with h
  subst h
  refine claim_one .host (by about) (by decide) (by decide) (by rest) ?_
  own []

theorem cmd8 {c c' : Cfg} {l : Line} {a : List Tok} (k : Cmd) (hk : cmds[8]? = some k) (hf : shape k.pat l a)
    (h : k.run c a = some c') : Claim c l c' := by
  obtain rfl := Option.some.inj hk
  clear hk
  obtain ⟨_, rfl, v0, _, _, rfl, rfl, l0, h0, rfl, rfl⟩ := hf
  injection h with h
  subst h
  have a0 : v0 % 4294967296 = v0 := by omega
  have b0 : v0 % 65536 = v0 := by omega
  have c0 : v0 % 256 = v0 := by omega
  have d0 : v0 ≠ 0 := by omega
  refine claim_one .fcInterval (by about) (by decide) (by decide) (by rest) ?_
  own [a0, b0, c0, d0]

theorem cmd9 {c c' : Cfg} {l : Line} {a : List Tok} (k : Cmd) (hk : cmds[9]? = some k) (hf : shape k.pat l a)
    (h : k.run c a = some c') : Claim c l c' := by
  obtain rfl := Option.some.inj hk
  clear hk
  obtain ⟨_, rfl, _, rfl, v0, _, _, rfl, rfl, l0, h0, rfl, rfl⟩ := hf
  injection h with h
  subst h
  have a0 : v0 % 4294967296 = v0 := by omega
  have d0 : v0 ≠ 0 := by omega
  refine claim_one .bvcSize (by about) (by decide) (by decide) (by rest) ?_
  own [a0, d0]

theorem cmd10 {c c' : Cfg} {l : Line} {a : List Tok} (k : Cmd) (hk : cmds[10]? = some k) (hf : shape k.pat l a)
    (h : k.run c a = some c') : Claim c l c' := by
  obtain rfl := Option.some.inj hk
  clear hk
  obtain ⟨_, rfl, _, rfl, _, rfl, rfl, rfl⟩ := hf
  injection h with h
  subst h
  refine claim_one .bvcSize (by about) (by decide) (by decide) (by rest) ?_
  own []

theorem cmd11 {c c' : Cfg} {l : Line} {a : List Tok} (k : Cmd) (hk : cmds[11]? = some k) (hf : shape k.pat l a)
    (h : k.run c a = some c') : Claim c l c' := by
  obtain rfl := Option.some.inj hk
  clear hk
  obtain ⟨_, rfl, _, rfl, v0, _, _, rfl, rfl, l0, h0, rfl, rfl⟩ := hf
  injection h with h
  subst h
  have a0 : v0 % 4294967296 = v0 := by omega
  have d0 : v0 ≠ 0 := by omega
  refine claim_one .bvcRate (by about) (by decide) (by decide) (by rest) ?_
  own [a0, d0]

theorem cmd12 {c c' : Cfg} {l : Line} {a : List Tok} (k : Cmd) (hk : cmds[12]? = some k) (hf : shape k.pat l a)
    (h : k.run c a = some c') : Claim c l c' := by
  obtain rfl := Option.some.inj hk
  clear hk
  obtain ⟨_, rfl, _, rfl, _, rfl, rfl, rfl⟩ := hf
  injection h with h
  subst h
  refine claim_one .bvcRate (by about) (by decide) (by decide) (by rest) ?_
  own []

theorem cmd13 {c c' : Cfg} {l : Line} {a : List Tok} (k : Cmd) (hk : cmds[13]? = some k) (hf : shape k.pat l a)
    (h : k.run c a = some c') : Claim c l c' := by
  obtain rfl := Option.some.inj hk
  clear hk
  obtain ⟨_, rfl, _, rfl, v0, _, _, rfl, rfl, l0, h0, rfl, rfl⟩ := hf
  injection h with h
  subst h
  have a0 : v0 % 4294967296 = v0 := by omega
  have d0 : v0 ≠ 0 := by omega
  refine claim_one .msSize (by about) (by decide) (by decide) (by rest) ?_
  own [a0, d0]

theorem cmd14 {c c' : Cfg} {l : Line} {a : List Tok} (k : Cmd) (hk : cmds[14]? = some k) (hf : shape k.pat l a)
    (h : k.run c a = some c') : Claim c l c' := by
  obtain rfl := Option.some.inj hk
  clear hk
  obtain ⟨_, rfl, _, rfl, _, rfl, rfl, rfl⟩ := hf
  injection h with h
  subst h
  refine claim_one .msSize (by about) (by decide) (by decide) (by rest) ?_
  own []

theorem cmd15 {c c' : Cfg} {l : Line} {a : List Tok} (k : Cmd) (hk : cmds[15]? = some k) (hf : shape k.pat l a)
    (h : k.run c a = some c') : Claim c l c' := by
  obtain rfl := Option.some.inj hk
  clear hk
  obtain ⟨_, rfl, _, rfl, v0, _, _, rfl, rfl, l0, h0, rfl, rfl⟩ := hf
  injection h with h
  subst h
  have a0 : v0 % 4294967296 = v0 := by omega
  have d0 : v0 ≠ 0 := by omega
  refine claim_one .msRate (by about) (by decide) (by decide) (by rest) ?_
  own [a0, d0]

theorem cmd16 {c c' : Cfg} {l : Line} {a : List Tok} (k : Cmd) (hk : cmds[16]? = some k) (hf : shape k.pat l a)
    (h : k.run c a = some c') : Claim c l c' := by
  obtain rfl := Option.some.inj hk
  clear hk
  obtain ⟨_, rfl, _, rfl, _, rfl, rfl, rfl⟩ := hf
  injection h with h
  subst h
  refine claim_one .msRate (by about) (by decide) (by decide) (by rest) ?_
  own []

theorem cmd20 {c c' : Cfg} {l : Line} {a : List Tok} (k : Cmd) (hk : cmds[20]? = some k) (hf : shape k.pat l a)
    (h : k.run c a = some c') : Claim c l c' := by
  obtain rfl := Option.some.inj hk
  clear hk
  obtain ⟨_, rfl, _, rfl, rfl, rfl⟩ := hf
  injection h with h
  subst h
  refine claim_one .cs (by about) (by decide) (by decide) (by rest) ?_
  own []

theorem cmd22 {c c' : Cfg} {l : Line} {a : List Tok} (k : Cmd) (hk : cmds[22]? = some k) (hf : shape k.pat l a)
    (h : k.run c a = some c') : Claim c l c' := by
  obtain rfl := Option.some.inj hk
  clear hk
  obtain ⟨_, rfl, _, rfl, _, rfl, rfl, rfl⟩ := hf
  injection h with h
  subst h
  refine claim_one .csMax (by about) (by decide) (by decide) (by rest) ?_
  own []

theorem cmd24 {c c' : Cfg} {l : Line} {a : List Tok} (k : Cmd) (hk : cmds[24]? = some k) (hf : shape k.pat l a)
    (h : k.run c a = some c') : Claim c l c' := by
  obtain rfl := Option.some.inj hk
  clear hk
  obtain ⟨_, rfl, _, rfl, rfl, rfl⟩ := hf
  injection h with h
  subst h
  refine claim_one .mcs (by about) (by decide) (by decide) (by rest) ?_
  own []

theorem cmd26 {c c' : Cfg} {l : Line} {a : List Tok} (k : Cmd) (hk : cmds[26]? = some k) (hf : shape k.pat l a)
    (h : k.run c a = some c') : Claim c l c' := by
  obtain rfl := Option.some.inj hk
  clear hk
  obtain ⟨_, rfl, _, rfl, _, rfl, rfl, rfl⟩ := hf
  injection h with h
  subst h
  refine claim_one .mcsMax (by about) (by decide) (by decide) (by rest) ?_
  own []

theorem cmd29 {c c' : Cfg} {l : Line} {a : List Tok} (k : Cmd) (hk : cmds[29]? = some k) (hf : shape k.pat l a)
    (h : k.run c a = some c') : Claim c l c' := by
  obtain rfl := Option.some.inj hk
  clear hk
  obtain ⟨_, rfl, _, rfl, v0, _, _, rfl, rfl, l0, h0, rfl, rfl⟩ := hf
  injection h with h
  subst h
  have a0 : v0 % 4294967296 = v0 := by omega
  have b0 : v0 % 65536 = v0 := by omega
  have d0 : v0 ≠ 0 := by omega
  have e0 : v0 ≠ 65535 := by omega
  refine claim_one .life (by about) (by decide) (by decide) (by rest) ?_
  own [a0, b0, d0, e0]

theorem cmd30 {c c' : Cfg} {l : Line} {a : List Tok} (k : Cmd) (hk : cmds[30]? = some k) (hf : shape k.pat l a)
    (h : k.run c a = some c') : Claim c l c' := by
  obtain rfl := Option.some.inj hk
  clear hk
  obtain ⟨_, rfl, _, rfl, _, rfl, rfl, rfl⟩ := hf
  injection h with h
  subst h
  refine claim_one .life (by about) (by decide) (by decide) (by rest) ?_
  own []

theorem cmd31 {c c' : Cfg} {l : Line} {a : List Tok} (k : Cmd) (hk : cmds[31]? = some k) (hf : shape k.pat l a)
    (h : k.run c a = some c') : Claim c l c' := by
  obtain rfl := Option.some.inj hk
  clear hk
  obtain ⟨_, rfl, _, rfl, _, rfl, rfl, rfl⟩ := hf
  injection h with h
  subst h
  refine claim_one .life (by about) (by decide) (by decide) (by rest) ?_
  own []

theorem cmd32 {c c' : Cfg} {l : Line} {a : List Tok} (k : Cmd) (hk : cmds[32]? = some k) (hf : shape k.pat l a)
    (h : k.run c a = some c') : Claim c l c' := by
  obtain rfl := Option.some.inj hk
  clear hk
  obtain ⟨_, rfl, _, rfl, v0, _, _, rfl, rfl, l0, h0, rfl, rfl⟩ := hf
  injection h with h
  subst h
  have a0 : v0 % 4294967296 = v0 := by omega
  have b0 : v0 % 65536 = v0 := by omega
  have d0 : v0 ≠ 0 := by omega
  refine claim_one .hyst (by about) (by decide) (by decide) (by rest) ?_
  own [a0, b0, d0]

theorem cmd33 {c c' : Cfg} {l : Line} {a : List Tok} (k : Cmd) (hk : cmds[33]? = some k) (hf : shape k.pat l a)
    (h : k.run c a = some c') : Claim c l c' := by
  obtain rfl := Option.some.inj hk
  clear hk
  obtain ⟨_, rfl, _, rfl, _, rfl, rfl, rfl⟩ := hf
  injection h with h
  subst h
  refine claim_one .hyst (by about) (by decide) (by decide) (by rest) ?_
  own []

theorem cmd34 {c c' : Cfg} {l : Line} {a : List Tok} (k : Cmd) (hk : cmds[34]? = some k) (hf : shape k.pat l a)
    (h : k.run c a = some c') : Claim c l c' := by
  obtain rfl := Option.some.inj hk
  clear hk
  obtain ⟨_, rfl, _, rfl, rfl, rfl⟩ := hf
  injection h with h
  subst h
  refine claim_one .codel (by about) (by decide) (by decide) (by rest) ?_
  own []

theorem cmd36 {c c' : Cfg} {l : Line} {a : List Tok} (k : Cmd) (hk : cmds[36]? = some k) (hf : shape k.pat l a)
    (h : k.run c a = some c') : Claim c l c' := by
  obtain rfl := Option.some.inj hk
  clear hk
  obtain ⟨_, rfl, _, rfl, _, rfl, rfl, rfl⟩ := hf
  injection h with h
  subst h
  refine claim_one .codel (by about) (by decide) (by decide) (by rest) ?_
  own []

theorem cmd37 {c c' : Cfg} {l : Line} {a : List Tok} (k : Cmd) (hk : cmds[37]? = some k) (hf : shape k.pat l a)
    (h : k.run c a = some c') : Claim c l c' := by
  obtain rfl := Option.some.inj hk
  clear hk
  obtain ⟨_, rfl, _, rfl, v0, _, _, rfl, rfl, l0, h0, rfl, rfl⟩ := hf
  injection h with h
  subst h
  have a0 : v0 % 4294967296 = v0 := by omega
  have b0 : v0 % 65536 = v0 := by omega
  have d0 : v0 ≠ 0 := by omega
  refine claim_one .idle (by about) (by decide) (by decide) (by rest) ?_
  own [a0, b0, d0]

theorem cmd38 {c c' : Cfg} {l : Line} {a : List Tok} (k : Cmd) (hk : cmds[38]? = some k) (hf : shape k.pat l a)
    (h : k.run c a = some c') : Claim c l c' := by
  obtain rfl := Option.some.inj hk
  clear hk
  obtain ⟨_, rfl, _, rfl, _, rfl, rfl, rfl⟩ := hf
  injection h with h
  subst h
  refine claim_one .idle (by about) (by decide) (by decide) (by rest) ?_
  own []

theorem cmd40 {c c' : Cfg} {l : Line} {a : List Tok} (k : Cmd) (hk : cmds[40]? = some k) (hf : shape k.pat l a)
    (h : k.run c a = some c') : Claim c l c' := by
  obtain rfl := Option.some.inj hk
  clear hk
  obtain ⟨_, rfl, rfl, rfl⟩ := hf
  injection h with h
  subst h
  refine claim_one .two (by about) (by decide) (by decide) (by rest) ?_
  own []

theorem cmd41 {c c' : Cfg} {l : Line} {a : List Tok} (k : Cmd) (hk : cmds[41]? = some k) (hf : shape k.pat l a)
    (h : k.run c a = some c') : Claim c l c' := by
  obtain rfl := Option.some.inj hk
  clear hk
  obtain ⟨_, rfl, _, rfl, rfl, rfl⟩ := hf
  injection h with h
  subst h
  refine claim_one .two (by about) (by decide) (by decide) (by rest) ?_
  own []

theorem cmd46 {c c' : Cfg} {l : Line} {a : List Tok} (k : Cmd) (hk : cmds[46]? = some k) (hf : shape k.pat l a)
    (h : k.run c a = some c') : Claim c l c' := by
  obtain rfl := Option.some.inj hk
  clear hk
  obtain ⟨_, rfl, rfl, rfl⟩ := hf
  injection h with h
  subst h
  refine claim_one .preempt (by about) (by decide) (by decide) (by rest) ?_
  own []

theorem cmd47 {c c' : Cfg} {l : Line} {a : List Tok} (k : Cmd) (hk : cmds[47]? = some k) (hf : shape k.pat l a)
    (h : k.run c a = some c') : Claim c l c' := by
  obtain rfl := Option.some.inj hk
  clear hk
  obtain ⟨_, rfl, _, rfl, rfl, rfl⟩ := hf
  injection h with h
  subst h
  refine claim_one .preempt (by about) (by decide) (by decide) (by rest) ?_
  own []

theorem cmd48 {c c' : Cfg} {l : Line} {a : List Tok} (k : Cmd) (hk : cmds[48]? = some k) (hf : shape k.pat l a)
    (h : k.run c a = some c') : Claim c l c' := by
  obtain rfl := Option.some.inj hk
  clear hk
  obtain ⟨_, rfl, _, rfl, v0, _, _, rfl, rfl, l0, h0, rfl, rfl⟩ := hf
  injection h with h
  subst h
  have a0 : v0 % 4294967296 = v0 := by omega
  have b0 : v0 % 65536 = v0 := by omega
  have c0 : v0 % 256 = v0 := by omega
  have d0 : v0 ≠ 0 := by omega
  refine claim_one .msclass (by about) (by decide) (by decide) (by rest) ?_
  own [a0, b0, c0, d0]

theorem cmd52 {c c' : Cfg} {l : Line} {a : List Tok} (k : Cmd) (hk : cmds[52]? = some k) (hf : shape k.pat l a)
    (h : k.run c a = some c') : Claim c l c' := by
  obtain rfl := Option.some.inj hk
  clear hk
  obtain ⟨_, rfl, _, rfl, _, rfl, rfl, rfl⟩ := hf
  injection h with h
  subst h
  refine claim_one .adj (by about) (by decide) (by decide) (by rest) ?_
  own []

theorem cmd53 {c c' : Cfg} {l : Line} {a : List Tok} (k : Cmd) (hk : cmds[53]? = some k) (hf : shape k.pat l a)
    (h : k.run c a = some c') : Claim c l c' := by
  obtain rfl := Option.some.inj hk
  clear hk
  obtain ⟨_, rfl, _, rfl, v0, _, _, rfl, rfl, l0, h0, rfl, rfl⟩ := hf
  injection h with h
  subst h
  have a0 : v0 % 4294967296 = v0 := by omega
  have b0 : v0 % 65536 = v0 := by omega
  have d0 : v0 ≠ 0 := by omega
  refine claim_one .downgrade (by about) (by decide) (by decide) (by rest) ?_
  own [a0, b0, d0]

theorem cmd54 {c c' : Cfg} {l : Line} {a : List Tok} (k : Cmd) (hk : cmds[54]? = some k) (hf : shape k.pat l a)
    (h : k.run c a = some c') : Claim c l c' := by
  obtain rfl := Option.some.inj hk
  clear hk
  obtain ⟨_, rfl, _, rfl, _, rfl, rfl, rfl⟩ := hf
  injection h with h
  subst h
  refine claim_one .downgrade (by about) (by decide) (by decide) (by rest) ?_
  own []

theorem cmd55 {c c' : Cfg} {l : Line} {a : List Tok} (k : Cmd) (hk : cmds[55]? = some k) (hf : shape k.pat l a)
    (h : k.run c a = some c') : Claim c l c' := by
  obtain rfl := Option.some.inj hk
  clear hk
  obtain ⟨_, rfl, _, rfl, _, rfl, v0, _, _, rfl, rfl, l0, h0, _, rfl, v1, _, _, rfl, rfl, l1, h1, v2, _, _, rfl, rfl, l2, h2, _, rfl, v3, _, _, rfl, rfl, l3, h3, v4, _, _, rfl, rfl, l4, h4, _, rfl, v5, _, _, rfl, rfl, l5, h5, rfl, rfl⟩ := hf
  injection h with h
  subst h
  have a0 : v0 % 4294967296 = v0 := by omega
  have b0 : v0 % 65536 = v0 := by omega
  have c0 : v0 % 256 = v0 := by omega
  have a1 : v1 % 4294967296 = v1 := by omega
  have b1 : v1 % 65536 = v1 := by omega
  have c1 : v1 % 256 = v1 := by omega
  have a2 : v2 % 4294967296 = v2 := by omega
  have b2 : v2 % 65536 = v2 := by omega
  have c2 : v2 % 256 = v2 := by omega
  have a3 : v3 % 4294967296 = v3 := by omega
  have b3 : v3 % 65536 = v3 := by omega
  have c3 : v3 % 256 = v3 := by omega
  have a4 : v4 % 4294967296 = v4 := by omega
  have b4 : v4 % 65536 = v4 := by omega
  have c4 : v4 % 256 = v4 := by omega
  have a5 : v5 % 4294967296 = v5 := by omega
  have b5 : v5 % 65536 = v5 := by omega
  have c5 : v5 % 256 = v5 := by omega
  refine claim_one .csLq (by about) (by decide) (by decide) (by rest) ?_
  own [a0, b0, c0, a1, b1, c1, a2, b2, c2, a3, b3, c3, a4, b4, c4, a5, b5, c5]

theorem cmd56 {c c' : Cfg} {l : Line} {a : List Tok} (k : Cmd) (hk : cmds[56]? = some k) (hf : shape k.pat l a)
    (h : k.run c a = some c') : Claim c l c' := by
  obtain rfl := Option.some.inj hk
  clear hk
  obtain ⟨_, rfl, _, rfl, _, rfl, v0, _, _, rfl, rfl, l0, h0, _, rfl, v1, _, _, rfl, rfl, l1, h1, v2, _, _, rfl, rfl, l2, h2, _, rfl, v3, _, _, rfl, rfl, l3, h3, v4, _, _, rfl, rfl, l4, h4, _, rfl, v5, _, _, rfl, rfl, l5, h5, v6, _, _, rfl, rfl, l6, h6, _, rfl, v7, _, _, rfl, rfl, l7, h7, v8, _, _, rfl, rfl, l8, h8, _, rfl, v9, _, _, rfl, rfl, l9, h9, v10, _, _, rfl, rfl, l10, h10, _, rfl, v11, _, _, rfl, rfl, l11, h11, v12, _, _, rfl, rfl, l12, h12, _, rfl, v13, _, _, rfl, rfl, l13, h13, v14, _, _, rfl, rfl, l14, h14, _, rfl, v15, _, _, rfl, rfl, l15, h15, rfl, rfl⟩ := hf
  injection h with h
  subst h
  have a0 : v0 % 4294967296 = v0 := by omega
  have b0 : v0 % 65536 = v0 := by omega
  have c0 : v0 % 256 = v0 := by omega
  have a1 : v1 % 4294967296 = v1 := by omega
  have b1 : v1 % 65536 = v1 := by omega
  have c1 : v1 % 256 = v1 := by omega
  have a2 : v2 % 4294967296 = v2 := by omega
  have b2 : v2 % 65536 = v2 := by omega
  have c2 : v2 % 256 = v2 := by omega
  have a3 : v3 % 4294967296 = v3 := by omega
  have b3 : v3 % 65536 = v3 := by omega
  have c3 : v3 % 256 = v3 := by omega
  have a4 : v4 % 4294967296 = v4 := by omega
  have b4 : v4 % 65536 = v4 := by omega
  have c4 : v4 % 256 = v4 := by omega
  have a5 : v5 % 4294967296 = v5 := by omega
  have b5 : v5 % 65536 = v5 := by omega
  have c5 : v5 % 256 = v5 := by omega
  have a6 : v6 % 4294967296 = v6 := by omega
  have b6 : v6 % 65536 = v6 := by omega
  have c6 : v6 % 256 = v6 := by omega
  have a7 : v7 % 4294967296 = v7 := by omega
  have b7 : v7 % 65536 = v7 := by omega
  have c7 : v7 % 256 = v7 := by omega
  have a8 : v8 % 4294967296 = v8 := by omega
  have b8 : v8 % 65536 = v8 := by omega
  have c8 : v8 % 256 = v8 := by omega
  have a9 : v9 % 4294967296 = v9 := by omega
  have b9 : v9 % 65536 = v9 := by omega
  have c9 : v9 % 256 = v9 := by omega
  have a10 : v10 % 4294967296 = v10 := by omega
  have b10 : v10 % 65536 = v10 := by omega
  have c10 : v10 % 256 = v10 := by omega
  have a11 : v11 % 4294967296 = v11 := by omega
  have b11 : v11 % 65536 = v11 := by omega
  have c11 : v11 % 256 = v11 := by omega
  have a12 : v12 % 4294967296 = v12 := by omega
  have b12 : v12 % 65536 = v12 := by omega
  have c12 : v12 % 256 = v12 := by omega
  have a13 : v13 % 4294967296 = v13 := by omega
  have b13 : v13 % 65536 = v13 := by omega
  have c13 : v13 % 256 = v13 := by omega
  have a14 : v14 % 4294967296 = v14 := by omega
  have b14 : v14 % 65536 = v14 := by omega
  have c14 : v14 % 256 = v14 := by omega
  have a15 : v15 % 4294967296 = v15 := by omega
  have b15 : v15 % 65536 = v15 := by omega
  have c15 : v15 % 256 = v15 := by omega
  refine claim_one .mcsLq (by about) (by decide) (by decide) (by rest) ?_
  own [a0, b0, c0, a1, b1, c1, a2, b2, c2, a3, b3, c3, a4, b4, c4, a5, b5, c5, a6, b6, c6, a7, b7, c7, a8, b8, c8, a9, b9, c9, a10, b10, c10, a11, b11, c11, a12, b12, c12, a13, b13, c13, a14, b14, c14, a15, b15, c15]

theorem cmd59 {c c' : Cfg} {l : Line} {a : List Tok} (k : Cmd) (hk : cmds[59]? = some k) (hf : shape k.pat l a)
    (h : k.run c a = some c') : Claim c l c' := by
  obtain rfl := Option.some.inj hk
  clear hk
  obtain ⟨_, rfl, _, rfl, v0, _, _, rfl, rfl, l0, h0, rfl, rfl⟩ := hf
  injection h with h
  subst h
  have a0 : v0 % 4294967296 = v0 := by omega
  have b0 : v0 % 65536 = v0 := by omega
  have c0 : v0 % 256 = v0 := by omega
  refine claim_one .dscp (by about) (by decide) (by decide) (by rest) ?_
  own [a0, b0, c0]

theorem cmd60 {c c' : Cfg} {l : Line} {a : List Tok} (k : Cmd) (hk : cmds[60]? = some k) (hf : shape k.pat l a)
    (h : k.run c a = some c') : Claim c l c' := by
  obtain rfl := Option.some.inj hk
  clear hk
  obtain ⟨_, rfl, _, rfl, v0, _, _, rfl, rfl, l0, h0, rfl, rfl⟩ := hf
  injection h with h
  subst h
  have a0 : v0 % 4294967296 = v0 := by omega
  have b0 : v0 % 65536 = v0 := by omega
  have c0 : v0 % 256 = v0 := by omega
  refine claim_one .prio (by about) (by decide) (by decide) (by rest) ?_
  own [a0, b0, c0]

theorem cmd0 {c c' : Cfg} {l : Line} {a : List Tok} (k : Cmd) (hk : cmds[0]? = some k) (hf : shape k.pat l a)
    (h : k.run c a = some c') : Claim c l c' := by
  obtain rfl := Option.some.inj hk
  clear hk
  obtain ⟨_, rfl, h1⟩ := hf
  injection h with h
  subst h
  rcases h1 with ⟨t, _, _, rfl, rfl, rfl, rfl⟩ | ⟨rfl, _, rfl⟩
  · refine claim_one .host (by about) (by decide) (by decide) (by rest) ?_
    own []
  · refine claim_one .host (by about) (by decide) (by decide) (by rest) ?_
    own []

theorem cmd5 {c c' : Cfg} {l : Line} {a : List Tok} (k : Cmd) (hk : cmds[5]? = some k) (hf : shape k.pat l a)
    (h : k.run c a = some c') : Claim c l c' := by
  obtain rfl := Option.some.inj hk
  clear hk
  obtain ⟨_, rfl, rfl, rfl⟩ := hf
  injection h with h
  subst h
  refine claim_one .pcu (by about) (by decide) (by decide) (by rest) ?_
  own []

theorem cmd6 {c c' : Cfg} {l : Line} {a : List Tok} (k : Cmd) (hk : cmds[6]? = some k) (hf : shape k.pat l a)
    (h : k.run c a = some c') : Claim c l c' := by
  obtain rfl := Option.some.inj hk
  clear hk
  obtain ⟨_, rfl, _, rfl, rfl, rfl⟩ := hf
  injection h with h
  subst h
  refine claim_none ["egprs", "only"] (by about) (by decide) (by decide) (by intro s; cases s <;> rfl) ?_
  intro _; own []

theorem cmd7 {c c' : Cfg} {l : Line} {a : List Tok} (k : Cmd) (hk : cmds[7]? = some k) (hf : shape k.pat l a)
    (h : k.run c a = some c') : Claim c l c' := by
  obtain rfl := Option.some.inj hk
  clear hk
  obtain ⟨_, rfl, _, rfl, rfl, rfl⟩ := hf
  injection h with h
  subst h
  refine claim_none ["egprs"] (by about) (by decide) (by decide) (by intro s; cases s <;> rfl) ?_
  intro _; own []

theorem cmd17 {c c' : Cfg} {l : Line} {a : List Tok} (k : Cmd) (hk : cmds[17]? = some k) (hf : shape k.pat l a)
    (h : k.run c a = some c') : Claim c l c' := by
  obtain rfl := Option.some.inj hk
  clear hk
  obtain ⟨_, rfl, _, rfl, v0, _, _, rfl, rfl, l0, h0, rfl, rfl⟩ := hf
  injection h with h
  subst h
  refine claim_none ["flow-control", "bucket-time"] (by about) (by decide) (by decide) (by intro s; cases s <;> rfl) ?_
  exact fun hb => absurd ⟨v0, rfl⟩ hb

theorem cmd18 {c c' : Cfg} {l : Line} {a : List Tok} (k : Cmd) (hk : cmds[18]? = some k) (hf : shape k.pat l a)
    (h : k.run c a = some c') : Claim c l c' := by
  obtain rfl := Option.some.inj hk
  clear hk
  obtain ⟨_, rfl, _, rfl, _, rfl, rfl, rfl⟩ := hf
  injection h with h
  subst h
  refine claim_none ["flow-control", "bucket-time"] (by about) (by decide) (by decide) (by intro s; cases s <;> rfl) ?_
  intro _; own []

theorem cmd19 {c c' : Cfg} {l : Line} {a : List Tok} (k : Cmd) (hk : cmds[19]? = some k) (hf : shape k.pat l a)
    (h : k.run c a = some c') : Claim c l c' := by
  obtain rfl := Option.some.inj hk
  clear hk
  obtain ⟨_, rfl, v0, _, _, rfl, rfl, l0, h0, h1⟩ := hf
  injection h with h
  subst h
  have a0 : v0 % 4294967296 = v0 := by omega
  have b0 : v0 % 65536 = v0 := by omega
  have c0 : v0 % 256 = v0 := by omega
  have d0 : v0 ≠ 0 := by omega
  rcases h1 with ⟨v1, _, _, rfl, rfl, l1, h1, rfl, rfl⟩ | ⟨rfl, _, rfl⟩
  · refine claim_one .cs (by about) (by decide) (by decide) (by rest) ?_
    have a1 : v1 % 4294967296 = v1 := by omega
    have b1 : v1 % 65536 = v1 := by omega
    have c1 : v1 % 256 = v1 := by omega
    have d1 : v1 ≠ 0 := by omega
    by_cases he : v0 = v1
    · subst he; own [a0, b0, c0, d0]
    · have he' : v1 ≠ v0 := fun h => he h.symm
      own [a0, b0, c0, d0, a1, b1, c1, d1, he, he']
  · refine claim_one .cs (by about) (by decide) (by decide) (by rest) ?_
    own [a0, b0, c0, d0]

theorem cmd21 {c c' : Cfg} {l : Line} {a : List Tok} (k : Cmd) (hk : cmds[21]? = some k) (hf : shape k.pat l a)
    (h : k.run c a = some c') : Claim c l c' := by
  obtain rfl := Option.some.inj hk
  clear hk
  obtain ⟨_, rfl, _, rfl, v0, _, _, rfl, rfl, l0, h0, h1⟩ := hf
  injection h with h
  subst h
  have a0 : v0 % 4294967296 = v0 := by omega
  have b0 : v0 % 65536 = v0 := by omega
  have c0 : v0 % 256 = v0 := by omega
  have d0 : v0 ≠ 0 := by omega
  rcases h1 with ⟨v1, _, _, rfl, rfl, l1, h1, rfl, rfl⟩ | ⟨rfl, _, rfl⟩
  · refine claim_one .csMax (by about) (by decide) (by decide) (by rest) ?_
    have a1 : v1 % 4294967296 = v1 := by omega
    have b1 : v1 % 65536 = v1 := by omega
    have c1 : v1 % 256 = v1 := by omega
    have d1 : v1 ≠ 0 := by omega
    by_cases he : v0 = v1
    · subst he; own [a0, b0, c0, d0]
    · have he' : v1 ≠ v0 := fun h => he h.symm
      own [a0, b0, c0, d0, a1, b1, c1, d1, he, he']
  · refine claim_one .csMax (by about) (by decide) (by decide) (by rest) ?_
    own [a0, b0, c0, d0]

theorem cmd23 {c c' : Cfg} {l : Line} {a : List Tok} (k : Cmd) (hk : cmds[23]? = some k) (hf : shape k.pat l a)
    (h : k.run c a = some c') : Claim c l c' := by
  obtain rfl := Option.some.inj hk
  clear hk
  obtain ⟨_, rfl, v0, _, _, rfl, rfl, l0, h0, h1⟩ := hf
  injection h with h
  subst h
  have a0 : v0 % 4294967296 = v0 := by omega
  have b0 : v0 % 65536 = v0 := by omega
  have c0 : v0 % 256 = v0 := by omega
  have d0 : v0 ≠ 0 := by omega
  rcases h1 with ⟨v1, _, _, rfl, rfl, l1, h1, rfl, rfl⟩ | ⟨rfl, _, rfl⟩
  · refine claim_one .mcs (by about) (by decide) (by decide) (by rest) ?_
    have a1 : v1 % 4294967296 = v1 := by omega
    have b1 : v1 % 65536 = v1 := by omega
    have c1 : v1 % 256 = v1 := by omega
    have d1 : v1 ≠ 0 := by omega
    by_cases he : v0 = v1
    · subst he; own [a0, b0, c0, d0]
    · have he' : v1 ≠ v0 := fun h => he h.symm
      own [a0, b0, c0, d0, a1, b1, c1, d1, he, he']
  · refine claim_one .mcs (by about) (by decide) (by decide) (by rest) ?_
    own [a0, b0, c0, d0]

theorem cmd25 {c c' : Cfg} {l : Line} {a : List Tok} (k : Cmd) (hk : cmds[25]? = some k) (hf : shape k.pat l a)
    (h : k.run c a = some c') : Claim c l c' := by
  obtain rfl := Option.some.inj hk
  clear hk
  obtain ⟨_, rfl, _, rfl, v0, _, _, rfl, rfl, l0, h0, h1⟩ := hf
  injection h with h
  subst h
  have a0 : v0 % 4294967296 = v0 := by omega
  have b0 : v0 % 65536 = v0 := by omega
  have c0 : v0 % 256 = v0 := by omega
  have d0 : v0 ≠ 0 := by omega
  rcases h1 with ⟨v1, _, _, rfl, rfl, l1, h1, rfl, rfl⟩ | ⟨rfl, _, rfl⟩
  · refine claim_one .mcsMax (by about) (by decide) (by decide) (by rest) ?_
    have a1 : v1 % 4294967296 = v1 := by omega
    have b1 : v1 % 65536 = v1 := by omega
    have c1 : v1 % 256 = v1 := by omega
    have d1 : v1 ≠ 0 := by omega
    by_cases he : v0 = v1
    · subst he; own [a0, b0, c0, d0]
    · have he' : v1 ≠ v0 := fun h => he h.symm
      own [a0, b0, c0, d0, a1, b1, c1, d1, he, he']
  · refine claim_one .mcsMax (by about) (by decide) (by decide) (by rest) ?_
    own [a0, b0, c0, d0]

theorem cmd27 {c c' : Cfg} {l : Line} {a : List Tok} (k : Cmd) (hk : cmds[27]? = some k) (hf : shape k.pat l a)
    (h : k.run c a = some c') : Claim c l c' := by
  obtain rfl := Option.some.inj hk
  clear hk
  obtain ⟨_, rfl, _, rfl, _, rfl, t, _, _, rfl, rfl, ht, rfl, rfl⟩ := hf
  injection h with h
  subst h
  refine claim_one .arq (by about) (by decide) (by decide) (by rest) ?_
  simp only [List.mem_cons, List.not_mem_nil, or_false] at ht
  rcases ht with rfl | rfl <;> own []

theorem cmd28 {c c' : Cfg} {l : Line} {a : List Tok} (k : Cmd) (hk : cmds[28]? = some k) (hf : shape k.pat l a)
    (h : k.run c a = some c') : Claim c l c' := by
  obtain rfl := Option.some.inj hk
  clear hk
  obtain ⟨_, rfl, v0, _, _, rfl, rfl, l0, h0, h1⟩ := hf
  injection h with h
  subst h
  have a0 : v0 % 4294967296 = v0 := by omega
  have b0 : v0 % 65536 = v0 := by omega
  rcases h1 with ⟨v1, _, _, rfl, rfl, l1, h1, rfl, rfl⟩ | ⟨rfl, _, rfl⟩
  · refine claim_one .ws (by about) (by decide) (by decide) (by rest) ?_
    have a1 : v1 % 4294967296 = v1 := by omega
    have b1 : v1 % 65536 = v1 := by omega
    own [a0, b0, a1, b1]
  · refine claim_one .ws (by about) (by decide) (by decide) (by rest) ?_
    own [a0, b0]

theorem cmd35 {c c' : Cfg} {l : Line} {a : List Tok} (k : Cmd) (hk : cmds[35]? = some k) (hf : shape k.pat l a)
    (h : k.run c a = some c') : Claim c l c' := by
  obtain rfl := Option.some.inj hk
  clear hk
  obtain ⟨_, rfl, _, rfl, _, rfl, v0, _, _, rfl, rfl, l0, h0, rfl, rfl⟩ := hf
  injection h with h
  subst h
  have b0 : v0 % 65536 = v0 := by omega
  have a0 : 10 * v0 % 4294967296 = 10 * v0 := by omega
  have d0 : v0 ≠ 0 := by omega
  have e0 : 10 * v0 ≠ 4294967295 := by omega
  have f0 : 10 * v0 ≠ 0 := by omega
  refine claim_one .codel (by about) (by decide) (by decide) (by rest) ?_
  own [a0, b0, d0, e0, f0]

theorem cmd39 {c c' : Cfg} {l : Line} {a : List Tok} (k : Cmd) (hk : cmds[39]? = some k) (hf : shape k.pat l a)
    (h : k.run c a = some c') : Claim c l c' := by
  obtain rfl := Option.some.inj hk
  clear hk
  obtain ⟨_, rfl, t, _, _, rfl, rfl, ht, rfl, rfl⟩ := hf
  injection h with h
  subst h
  refine claim_one .algo (by about) (by decide) (by decide) (by rest) ?_
  simp only [List.mem_cons, List.not_mem_nil, or_false] at ht
  rcases ht with rfl | rfl | rfl <;> own []

theorem cmd58 {c c' : Cfg} {l : Line} {a : List Tok} (k : Cmd) (hk : cmds[58]? = some k) (hf : shape k.pat l a)
    (h : k.run c a = some c') : Claim c l c' := by
  obtain rfl := Option.some.inj hk
  clear hk
  obtain ⟨_, rfl, t, _, _, rfl, rfl, ht, rfl, rfl⟩ := hf
  injection h with h
  subst h
  refine claim_one .dialect (by about) (by decide) (by decide) (by rest) ?_
  simp only [List.mem_cons, List.not_mem_nil, or_false] at ht
  rcases ht with rfl | rfl <;> own []

theorem cmd42 {c c' : Cfg} {l : Line} {a : List Tok} (k : Cmd) (hk : cmds[42]? = some k) (hf : shape k.pat l a)
    (h : k.run c a = some c') : Claim c l c' := by
  obtain rfl := Option.some.inj hk
  clear hk
  obtain ⟨_, rfl, h1⟩ := hf
  injection h with h
  subst h
  rcases h1 with ⟨v0, _, _, rfl, rfl, l0, h0, rfl, rfl⟩ | ⟨_, _, rfl, rfl, rfl, rfl⟩
  · refine claim_one .alpha (by about) (by decide) (by decide) (by rest) ?_
    have c0 : v0 % 256 = v0 := by omega
    have e0 : v0 ≠ 255 := by omega
    own [c0, e0]
  · refine claim_one .alpha (by about) (by decide) (by decide) (by rest) ?_
    own []

theorem cmd43 {c c' : Cfg} {l : Line} {a : List Tok} (k : Cmd) (hk : cmds[43]? = some k) (hf : shape k.pat l a)
    (h : k.run c a = some c') : Claim c l c' := by
  obtain rfl := Option.some.inj hk
  clear hk
  obtain ⟨_, rfl, v0, _, _, rfl, rfl, l0, h0, rfl, rfl⟩ := hf
  injection h with h
  subst h
  have c0 : v0 / 2 % 256 = v0 / 2 := by omega
  refine claim_one .gamma (by about) (by decide) (by decide) (by rest) ?_
  own [c0]

theorem cmd51 {c c' : Cfg} {l : Line} {a : List Tok} (k : Cmd) (hk : cmds[51]? = some k) (hf : shape k.pat l a)
    (h : k.run c a = some c') : Claim c l c' := by
  obtain rfl := Option.some.inj hk
  clear hk
  obtain ⟨_, rfl, _, rfl, v0, _, _, rfl, rfl, l0, h0, v1, _, _, rfl, rfl, l1, h1, rfl, rfl⟩ := hf
  dsimp only at h
  split at h
  · cases h
  injection h with h
  subst h
  have c0 : v0 % 256 = v0 := by omega
  have c1 : v1 % 256 = v1 := by omega
  refine claim_one .adj (by about) (by decide) (by decide) (by rest) ?_
  own [c0, c1]

theorem cmd57 {c c' : Cfg} {l : Line} {a : List Tok} (k : Cmd) (hk : cmds[57]? = some k) (hf : shape k.pat l a)
    (h : k.run c a = some c') : Claim c l c' := by
  obtain rfl := Option.some.inj hk
  clear hk
  obtain ⟨_, rfl, t, _, _, rfl, rfl, rfl, rfl⟩ := hf
  injection h with h
  subst h
  refine claim_one .sock (by about) (by decide) (by decide) (by rest) ?_
  by_cases he : t = .w "/tmp/pcu_bts" <;> own [he]

theorem timer_facts : ∀ p ∈ tdefs, single (key (.timer p)) = true ∧ (order.filter fun s => key s == key (.timer p)) = [.timer p] ∧
    timerDefaults.lookup p.1 = some p.2.1 ∧ ∀ q ∈ tdefs, q.1 = p.1 → q = p := by decide +kernel

theorem timer_order {t : String × Nat × Nat} (h : S.timer t ∈ order) : t ∈ tdefs := by
  unfold order at h
  rw [List.mem_append] at h
  rcases h with h | h
  · exfalso
    simp only [List.mem_append, List.mem_cons, List.mem_map, reduceCtorEq, List.not_mem_nil, or_self, false_or, or_false, and_false, exists_false] at h
  · rw [List.mem_map] at h
    obtain ⟨q, hq, he⟩ := h
    injection he with he
    subst he
    exact hq

theorem claim_timer {c c' : Cfg} {l : Line} {name : String} {v d mx : Nat} (ht : tdef name = some (d, mx)) (hs : subject l = ["timer", name])
    (hseg : ∀ s, (∀ t, s ≠ .timer t) → seg c' s = seg c s) (htm : c'.timers = fun k => if k = name then v else c.timers k)
    (hexp : ∀ old, expected l old = timerLine name v) : Claim c l c' := by
  have hp := tdef_mem ht
  obtain ⟨f1, f2, f3, f4⟩ := timer_facts _ hp
  refine claim_one (.timer (name, d, mx)) hs f1 f2 ?_ ?_
  · intro s hm hne
    cases s with
    | timer t =>
      have hq : t.1 ≠ name := fun h => hne (by rw [f4 t (timer_order hm) h])
      simp only [seg, htm, if_neg hq]
    | _ => exact hseg _ (fun t h => by cases h)
  · rw [hexp]
    simp only [seg, htm, if_pos, timerLine, f3, Option.some.injEq]
    by_cases he : v = d
    · simp [he]
    · have he' : d ≠ v := fun h => he h.symm
      simp [he, he']

theorem claim_setTimer {c c' : Cfg} {l : Line} {name : String} {v : Nat} (h : setTimer c name v = some c') (hs : subject l = ["timer", name])
    (hexp : ∀ old, expected l old = timerLine name v) : Claim c l c' := by
  unfold setTimer at h
  split at h
  · cases h
  · rename_i q d mx ht
    split at h
    · cases h
    · injection h with h
      subst h
      refine claim_timer ht hs ?_ rfl hexp
      intro s hs
      cases s <;> first | rfl | exact absurd rfl (hs _)

theorem timer_default {name : String} {q : Nat × Nat} (ht : tdef name = some q) : timerLine name (tdefault name) = [] := by
  have := (timer_facts _ (tdef_mem ht)).2.2.1
  simp only [timerLine, tdefault, ht, this, Option.map_some, Option.getD_some, if_pos]

theorem claim_keep {c c' : Cfg} {l : Line} (h : Claim c l c') (x y : Nat) : Claim c l { c' with neighKeep := x, siKeep := y } := by
  have : ∀ s, seg { c' with neighKeep := x, siKeep := y } s = seg c' s := by intro s; cases s <;> rfl
  have e : seg { c' with neighKeep := x, siKeep := y } = seg c' := funext this
  obtain ⟨h1, h2⟩ := h
  constructor
  · rw [e]; exact h1
  · rw [e]; exact h2

theorem claim_timerCmd {c c' : Cfg} {name : String} {v : Tok} (hv : v = .w "default" ∨ ∃ x, v = .n x) (h : timerCmd c [.w name, v] = some c') :
    Claim c [.w "timer", .w name, v] c' := by
  simp only [timerCmd] at h
  cases hs : setTimer c name (timerVal name v) with
  | none => rw [hs] at h; cases h
  | some d =>
    rw [hs] at h
    dsimp only at h
    have hd : Claim c [.w "timer", .w name, v] d := by
      refine claim_setTimer hs (by about) ?_
      intro old
      rcases hv with rfl | ⟨x, rfl⟩
      · cases ht : tdef name with
        | none => simp [setTimer, ht] at hs
        | some q =>
          simp only [timerVal, timer_default ht]
          own []
      · simp only [timerVal]
        own []
    split at h
    · injection h with h; subst h; exact claim_keep hd _ d.siKeep
    · split at h
      · injection h with h; subst h; exact claim_keep hd d.neighKeep _
      · injection h with h; subst h; exact hd

theorem cmd44 {c c' : Cfg} {l : Line} {a : List Tok} (k : Cmd) (hk : cmds[44]? = some k) (hf : shape k.pat l a)
    (h : k.run c a = some c') : Claim c l c' := by
  obtain rfl := Option.some.inj hk
  clear hk
  obtain ⟨_, rfl, v0, _, _, rfl, rfl, l0, h0, rfl, rfl⟩ := hf
  have h' : setTimer c "X2031" v0 = some c' := h
  exact claim_setTimer h' (by about) (by intro old; own [])

theorem cmd49 {c c' : Cfg} {l : Line} {a : List Tok} (k : Cmd) (hk : cmds[49]? = some k) (hf : shape k.pat l a)
    (h : k.run c a = some c') : Claim c l c' := by
  obtain rfl := Option.some.inj hk
  clear hk
  obtain ⟨_, rfl, v0, _, _, rfl, rfl, l0, h0, rfl, rfl⟩ := hf
  have h' : setTimer c "X2030" v0 = some c' := h
  exact claim_setTimer h' (by about) (by intro old; own [])

theorem cmd45 {c c' : Cfg} {l : Line} {a : List Tok} (k : Cmd) (hk : cmds[45]? = some k) (hf : shape k.pat l a)
    (h : k.run c a = some c') : Claim c l c' := by
  obtain rfl := Option.some.inj hk
  clear hk
  obtain ⟨_, rfl, _, rfl, rfl, rfl⟩ := hf
  have h' : setTimer c "X2031" 0 = some c' := h
  exact claim_setTimer h' (by about) (by intro old; own [])

theorem cmd50 {c c' : Cfg} {l : Line} {a : List Tok} (k : Cmd) (hk : cmds[50]? = some k) (hf : shape k.pat l a)
    (h : k.run c a = some c') : Claim c l c' := by
  obtain rfl := Option.some.inj hk
  clear hk
  obtain ⟨_, rfl, _, rfl, rfl, rfl⟩ := hf
  have h' : setTimer c "X2030" 0 = some c' := h
  exact claim_setTimer h' (by about) (by intro old; own [])

theorem cmd61 {c c' : Cfg} {l : Line} {a : List Tok} (k : Cmd) (hk : cmds[61]? = some k) (hf : shape k.pat l a)
    (h : k.run c a = some c') : Claim c l c' := by
  obtain rfl := Option.some.inj hk
  clear hk
  obtain ⟨_, rfl, h1⟩ := hf
  rcases h1 with ⟨t, r, b, rfl, rfl, h2⟩ | ⟨rfl, h2⟩
  · rcases h2 with ⟨v, _, _, rfl, rfl, _, _, rfl, rfl⟩ | ⟨_, _, rfl, rfl, rfl, rfl⟩ | ⟨rfl, _, rfl⟩
    · cases t with
      | w name => exact claim_timerCmd (.inr ⟨v, rfl⟩) h
      | n x => cases h
    · cases t with
      | w name => exact claim_timerCmd (.inl rfl) h
      | n x => cases h
    · cases t <;> (injection h with h; subst h; exact claim_same (by intro old; own []))
  · rcases h2 with ⟨v, _, _, h3, _⟩ | ⟨_, _, h3, _⟩ | ⟨_, _, rfl⟩
    · cases h3
    · cases h3
    · injection h with h; subst h; exact claim_same (by intro old; own [])

theorem categ_facts : ∀ p ∈ categs, categs.lookup p.1 = some p.2 ∧ categName p.2 = some p.1 ∧ single (key (.categ p.2)) = true ∧
    (order.filter fun s => key s == key (.categ p.2)) = [.categ p.2] ∧ p.2 < 32 := by decide +kernel

theorem bit_or (m : BitVec 32) {i : Nat} (hi : i < 32) (j : Nat) :
    (m ||| (1#32 <<< i)).getLsbD j = (m.getLsbD j || (decide (j = i))) := by
  rw [BitVec.getLsbD_or, BitVec.getLsbD_shiftLeft, BitVec.getLsbD_one]
  by_cases hj : j = i
  · subst hj; simp [hi]
  · by_cases h1 : j < i
    · simp [h1, hj]
    · have : j - i ≠ 0 := by omega
      simp [hj, this]

theorem bit_and (m : BitVec 32) {i : Nat} (hi : i < 32) (j : Nat) :
    (m &&& ~~~(1#32 <<< i)).getLsbD j = (m.getLsbD j && !(decide (j = i))) := by
  rw [BitVec.getLsbD_and, BitVec.getLsbD_not, BitVec.getLsbD_shiftLeft, BitVec.getLsbD_one]
  by_cases hl : j < 32
  · by_cases hj : j = i
    · subst hj; simp [hi]
    · by_cases h1 : j < i
      · simp [h1, hj, hl]
      · have : j - i ≠ 0 := by omega
        simp [hj, this, hl]
  · rw [BitVec.getLsbD_of_ge _ _ (by omega)]
    simp

theorem cmd3 {c c' : Cfg} {l : Line} {a : List Tok} (k : Cmd) (hk : cmds[3]? = some k) (hf : shape k.pat l a)
    (h : k.run c a = some c') : Claim c l c' := by
  obtain rfl := Option.some.inj hk
  clear hk
  obtain ⟨_, rfl, t, _, _, rfl, rfl, ht, rfl, rfl⟩ := hf
  rw [List.mem_map] at ht
  obtain ⟨p, hp, rfl⟩ := ht
  obtain ⟨f1, f2, f3, f4, f5⟩ := categ_facts p hp
  have hi : categOf [.w p.1] = some p.2 := f1
  dsimp only at h
  rw [hi] at h
  injection h with h
  subst h
  refine claim_one (.categ p.2) ?_ f3 f4 ?_ ?_
  · simp [subject, nameOf, groups, key, f2]
  · intro s _ hs
    cases s with
    | categ j =>
      have : j ≠ p.2 := fun h => hs (by rw [h])
      simp only [seg, bit_or _ f5, this, decide_false, Bool.or_false, Bool.not_false, Bool.and_true]
    | _ => rfl
  · simp only [seg, bit_or _ f5, decide_true, Bool.or_true, Bool.not_true, Bool.and_false, f2]
    have hne : p.1 ≠ "enable-all" ∧ p.1 ≠ "disable-all" := (by decide : ∀ p ∈ categs, p.1 ≠ "enable-all" ∧ p.1 ≠ "disable-all") p hp
    simp [expected, expectSet, hne.1, hne.2]

theorem cmd4 {c c' : Cfg} {l : Line} {a : List Tok} (k : Cmd) (hk : cmds[4]? = some k) (hf : shape k.pat l a)
    (h : k.run c a = some c') : Claim c l c' := by
  obtain rfl := Option.some.inj hk
  clear hk
  obtain ⟨_, rfl, _, rfl, t, _, _, rfl, rfl, ht, rfl, rfl⟩ := hf
  rw [List.mem_map] at ht
  obtain ⟨p, hp, rfl⟩ := ht
  obtain ⟨f1, f2, f3, f4, f5⟩ := categ_facts p hp
  have hi : categOf [.w p.1] = some p.2 := f1
  dsimp only at h
  rw [hi] at h
  injection h with h
  subst h
  refine claim_one (.categ p.2) ?_ f3 f4 ?_ ?_
  · simp [subject, nameOf, groups, key, f2]
  · intro s _ hs
    cases s with
    | categ j =>
      have : j ≠ p.2 := fun h => hs (by rw [h])
      simp only [seg, bit_and _ f5, this, decide_false, Bool.or_false, Bool.not_false, Bool.and_true]
    | _ => rfl
  · simp only [seg, bit_and _ f5, decide_true, Bool.or_true, Bool.not_true, Bool.and_false, f2]
    simp [expected, expectNo]

theorem all_on : ((List.range 32).flatMap fun i => (if (BitVec.allOnes 32).getLsbD i = true then
    (categName i).map fun s => [Tok.w "gsmtap-category", Tok.w s] else none).toList) = frameKinds.map fun k => [.w "gsmtap-category", .w k] := by
  decide +kernel

theorem all_off : ((List.range 32).flatMap fun i => (if (0#32).getLsbD i = true then
    (categName i).map fun s => [Tok.w "gsmtap-category", Tok.w s] else none).toList) = [] := by
  decide +kernel

theorem cmd2 {c c' : Cfg} {l : Line} {a : List Tok} (k : Cmd) (hk : cmds[2]? = some k) (hf : shape k.pat l a)
    (h : k.run c a = some c') : Claim c l c' := by
  obtain rfl := Option.some.inj hk
  clear hk
  obtain ⟨_, rfl, t, _, _, rfl, rfl, ht, rfl, rfl⟩ := hf
  injection h with h
  subst h
  simp only [List.mem_cons, List.not_mem_nil, or_false] at ht
  rcases ht with rfl | rfl
  · constructor
    · intro s _ ht
      cases s with
      | categ j => exact absurd ht (by simp [touches, isAll, subject, nameOf, groups, key])
      | _ => rfl
    · intro _
      have hu : (order.filter fun s => touches [.w "gsmtap-category", .w "enable-all"] (key s)) = (List.range 32).map .categ := by
        decide +kernel
      rw [hu, List.flatMap_map, List.flatMap_map]
      have e : streq [Tok.w "enable-all"] 0 "enable-all" = true := by decide
      simp only [seg, e, if_true]
      refine all_on.trans ?_
      own []
  · constructor
    · intro s _ ht
      cases s with
      | categ j => exact absurd ht (by simp [touches, isAll, subject, nameOf, groups, key])
      | _ => rfl
    · intro _
      have hu : (order.filter fun s => touches [.w "gsmtap-category", .w "disable-all"] (key s)) = (List.range 32).map .categ := by
        decide +kernel
      rw [hu, List.flatMap_map, List.flatMap_map]
      have e : streq [Tok.w "disable-all"] 0 "enable-all" = false := by decide
      simp only [seg, e, Bool.false_eq_true, if_false]
      refine all_off.trans ?_
      own []

/-- Every command does to the written file what is expected. -/
theorem claim_cmds {c c' : Cfg} {l : Line} {a : List Tok} (k : Cmd) (hk : k ∈ cmds) (hf : shape k.pat l a) (h : k.run c a = some c') : Claim c l c' := by
  obtain ⟨i, hi⟩ := List.getElem?_of_mem hk
  match i, hi with
  | 0, hi => exact cmd0 k hi hf h
  | 1, hi => exact cmd1 k hi hf h
  | 2, hi => exact cmd2 k hi hf h
  | 3, hi => exact cmd3 k hi hf h
  | 4, hi => exact cmd4 k hi hf h
  | 5, hi => exact cmd5 k hi hf h
  | 6, hi => exact cmd6 k hi hf h
  | 7, hi => exact cmd7 k hi hf h
  | 8, hi => exact cmd8 k hi hf h
  | 9, hi => exact cmd9 k hi hf h
  | 10, hi => exact cmd10 k hi hf h
  | 11, hi => exact cmd11 k hi hf h
  | 12, hi => exact cmd12 k hi hf h
  | 13, hi => exact cmd13 k hi hf h
  | 14, hi => exact cmd14 k hi hf h
  | 15, hi => exact cmd15 k hi hf h
  | 16, hi => exact cmd16 k hi hf h
  | 17, hi => exact cmd17 k hi hf h
  | 18, hi => exact cmd18 k hi hf h
  | 19, hi => exact cmd19 k hi hf h
  | 20, hi => exact cmd20 k hi hf h
  | 21, hi => exact cmd21 k hi hf h
  | 22, hi => exact cmd22 k hi hf h
  | 23, hi => exact cmd23 k hi hf h
  | 24, hi => exact cmd24 k hi hf h
  | 25, hi => exact cmd25 k hi hf h
  | 26, hi => exact cmd26 k hi hf h
  | 27, hi => exact cmd27 k hi hf h
  | 28, hi => exact cmd28 k hi hf h
  | 29, hi => exact cmd29 k hi hf h
  | 30, hi => exact cmd30 k hi hf h
  | 31, hi => exact cmd31 k hi hf h
  | 32, hi => exact cmd32 k hi hf h
  | 33, hi => exact cmd33 k hi hf h
  | 34, hi => exact cmd34 k hi hf h
  | 35, hi => exact cmd35 k hi hf h
  | 36, hi => exact cmd36 k hi hf h
  | 37, hi => exact cmd37 k hi hf h
  | 38, hi => exact cmd38 k hi hf h
  | 39, hi => exact cmd39 k hi hf h
  | 40, hi => exact cmd40 k hi hf h
  | 41, hi => exact cmd41 k hi hf h
  | 42, hi => exact cmd42 k hi hf h
  | 43, hi => exact cmd43 k hi hf h
  | 44, hi => exact cmd44 k hi hf h
  | 45, hi => exact cmd45 k hi hf h
  | 46, hi => exact cmd46 k hi hf h
  | 47, hi => exact cmd47 k hi hf h
  | 48, hi => exact cmd48 k hi hf h
  | 49, hi => exact cmd49 k hi hf h
  | 50, hi => exact cmd50 k hi hf h
  | 51, hi => exact cmd51 k hi hf h
  | 52, hi => exact cmd52 k hi hf h
  | 53, hi => exact cmd53 k hi hf h
  | 54, hi => exact cmd54 k hi hf h
  | 55, hi => exact cmd55 k hi hf h
  | 56, hi => exact cmd56 k hi hf h
  | 57, hi => exact cmd57 k hi hf h
  | 58, hi => exact cmd58 k hi hf h
  | 59, hi => exact cmd59 k hi hf h
  | 60, hi => exact cmd60 k hi hf h
  | 61, hi => exact cmd61 k hi hf h
  | n + 62, hi => simp [cmds] at hi

end Verif.Vty

import Verif.Lemmas.BrainfuckBlocks
import Verif.Spec.Brainfuck
import Verif.Props.Examples.HelloWorld

/-!
# The program of the example `brainfuck` interprets the language of `Spec/Brainfuck.lean`
-/

namespace Lrvm.Brainfuck

open Spec Lasm Lrvm Prog Lang

variable {pf : Profile} {fx : Fixed} {ids : Nat → U64} {lines : Nat → List Char} {keys : Nat → Char} {g : G} {v v' : V}
  {s : Machine Dev} {P : Machine Dev → Word → Prop} {a : Word} {st : List Word}

/-! ## Texts -/

/-- What the handler of the display receives for a text. -/
def shown (t : List Char) : DecodedStr := .ok (t ++ List.replicate (4092 - (utf8 t).length) (Char.ofNat 0))

/-- `call print` on a text. -/
theorem printText (hb : Board pf fx) (hP : Closed pf P) (h : On fx ids (g.m ids lines keys) v s)
    (hf : v.fetch = some (.call 48)) (hr : 0 < v.room) {p : Nat} (t : List Char) (hp : v.rr6 = BitVec.ofNat 32 p) (hal : p % 4 = 0)
    (hd : (bytesToWords (utf8 t ++ [0, 0, 0, 0])).isPrefixOf (words.drop (p / 4)) = true) (hnul : Char.ofNat 0 ∉ t)
    (hlen : (utf8 t).length ≤ 4092) (hbuf : g.buf = List.replicate 1023 0)
    (hk : ∀ s' a' x y z, On fx ids (G.m { g with texts := g.texts ++ [shown t] } ids lines keys)
      (((v.set 19 x).set 20 y).put 21 z) s' → P s' a') : P s a := by
  obtain ⟨W, hW, hnz, hWl, hbytes⟩ := words_of_text (utf8 t) (HelloWorld.utf8_nonzero hnul)
  have hlW := congrArg List.length hbytes
  rw [wordsToBytes_length, List.length_append, List.length_replicate] at hlW
  rw [hW] at hd
  obtain ⟨rest, hd⟩ := List.isPrefixOf_iff_prefix.1 hd
  refine print hb hP h hf hr hp hal (ws := W) (rest := rest) (by rw [← hd, List.append_assoc]; rfl) hnz (by omega) hbuf ?_
  have : decodeStr (wordsToBytes (W ++ List.replicate (1023 - W.length) 0)) = shown t := by
    have : fromUtf8 (wordsToBytes (W ++ List.replicate (1023 - W.length) 0)) =
        some (t ++ List.replicate (4092 - (utf8 t).length) (Char.ofNat 0)) := by
      rw [fromUtf8_iff, utf8_zeros]
      unfold wordsToBytes
      rw [List.flatMap_append]
      show _ = wordsToBytes W ++ wordsToBytes _
      rw [hbytes, HelloWorld.wordsToBytes_zeros, List.append_assoc,
        List.replicate_append_replicate,
        show 4 * W.length - (utf8 t).length + 4 * (1023 - W.length) = 4092 - (utf8 t).length by omega]
    unfold decodeStr shown
    rw [this]
  rw [this]
  exact hk

/-- The texts of the program and their addresses. -/
def textAt : List (Nat × String) :=
  [(768, "\n=== Welcome to the BrainFuck interpreter! ===\n\nPlease type your BrainFuck program here:\n\n"),
    (864, "\n=> Now running your program...\n\n"), (904, "\n===> ERROR: At character "), (936, "\n     "),
    (948, "\n\nNow exiting after error.\n"), (980, "Unknown symbol "), (1000, "No loop opened, cannot close one."),
    (1040, "Program exited before closing all loops: "), (1088, " were not closed, last one at character "),
    (1132, "\n\n=== Goodbye! ===\n")]

theorem textAt_ok : ∀ e ∈ textAt, e.1 % 4 = 0 ∧
    (bytesToWords (utf8 e.2.toList ++ [0, 0, 0, 0])).isPrefixOf (words.drop (e.1 / 4)) = true ∧ Char.ofNat 0 ∉ e.2.toList ∧
    (utf8 e.2.toList).length ≤ 4092 := by decide +kernel

/-- `call print` on one of the texts. -/
theorem printMsg (hb : Board pf fx) (hP : Closed pf P) (h : On fx ids (g.m ids lines keys) v s)
    (hf : v.fetch = some (.call 48)) (hr : 0 < v.room) (p : Nat) (t : String) (hp : v.rr6 = BitVec.ofNat 32 p) (hm : (p, t) ∈ textAt)
    (hbuf : g.buf = List.replicate 1023 0)
    (hk : ∀ s' a' x y z, On fx ids (G.m { g with texts := g.texts ++ [shown t.toList] } ids lines keys)
      (((v.set 19 x).set 20 y).put 21 z) s' → P s' a') : P s a := by
  obtain ⟨h1, h2, h3, h4⟩ := textAt_ok _ hm
  exact printText hb hP h hf hr t.toList hp h1 h2 h3 h4 hbuf hk

/-! ## The next character -/

theorem shifted (w : Word) {j : Nat} (hj : j < 4) {y : Word} (hy : y.toNat = 8 * j) :
    ((w <<< (y.toNat % 32)) >>> (24 % 32) : Word).toNat = w.toNat / 256 ^ (3 - j) % 256 := by
  have hw := w.isLt
  rw [hy, BitVec.toNat_ushiftRight, BitVec.toNat_shiftLeft, Nat.shiftRight_eq_div_pow, Nat.shiftLeft_eq]
  rcases j with _ | _ | _ | _ | j
  · show w.toNat * 2 ^ 0 % 2 ^ 32 / 2 ^ 24 = w.toNat / 256 ^ 3 % 256; omega
  · show w.toNat * 2 ^ 8 % 2 ^ 32 / 2 ^ 24 = w.toNat / 256 ^ 2 % 256; omega
  · show w.toNat * 2 ^ 16 % 2 ^ 32 / 2 ^ 24 = w.toNat / 256 ^ 1 % 256; omega
  · show w.toNat * 2 ^ 24 % 2 ^ 32 / 2 ^ 24 = w.toNat / 256 ^ 0 % 256; omega
  · omega

theorem charAt_lt (bytes : List U8) (pos : Nat) : charAt bytes pos < 256 := by
  unfold charAt
  cases bytes[pos]? with
  | none => decide
  | some b => exact b.isLt

theorem charAt_take {bytes : List U8} {pos : Nat} (h : pos < 4092) : charAt (bytes.take 4092) pos = paddedByte bytes pos := by
  unfold charAt paddedByte
  rw [List.getElem?_take, if_pos h]

theorem charAt_end {bytes : List U8} {pos : Nat} (h : 4092 ≤ pos) : charAt (bytes.take 4092) pos = 0 := by
  unfold charAt
  rw [List.getElem?_eq_none (by rw [List.length_take]; omega)]; rfl

/-- `call .next_char`. -/
theorem nextChar (hb : Board pf fx) (hP : Closed pf P) (h : On fx ids (g.m ids lines keys) v s)
    (hf : v.fetch = some (.call 280)) (hr : 0 < v.room) {pos : Nat} (h0 : v.rr0 = 0x4000) (hp : v.rr2 + 1#32 = BitVec.ofNat 32 pos)
    (hpos : pos ≤ 4092) {bytes : List U8} (hline : ∀ i, i < 1023 → g.line[i]? = some (wordAt bytes i))
    (hk : ∀ s' a' y z, On fx ids (g.m ids lines keys)
      ((((v.set 0 (BitVec.ofNat 32 (charAt (bytes.take 4092) pos))).set 15 (BitVec.ofNat 32 pos)).set 20 y).put 21 z) s' → P s' a') :
    P s a := by
  have hbk := back hf
  obtain ⟨a0, r0, r1, r2, r3, r5, r6, r7, av, pc, stk, _ | room⟩ := v
  · cases hr
  dsimp only at h0 hp hbk hk
  subst h0
  obtain ⟨w, hw, hc⟩ : ∃ w, (g.line[pos / 4]? = some w ∧ pos / 4 < 1023 ∨ w = 0 ∧ pos / 4 = 1023) ∧
      charAt (bytes.take 4092) pos = w.toNat / 256 ^ (3 - pos % 4) % 256 := by
    by_cases h4 : pos < 4092
    · refine ⟨_, .inl ⟨hline (pos / 4) (by omega), by omega⟩, ?_⟩
      rw [charAt_take h4, wordAt_byte _ _ _ (by omega), show 4 * (pos / 4) + pos % 4 = pos by omega]
    · refine ⟨0, .inr ⟨rfl, by omega⟩, ?_⟩
      rw [charAt_end (by omega)]
      show 0 = 0 / _ % 256
      rw [Nat.zero_div]
  refine On.exec1 hb hP h hf rfl fun s1 a1 h1 => ?_
  refine On.run hb hP h1 4 rfl fun s2 a2 h2 => ?_
  change On fx ids (g.m ids lines keys) ⟨a0, 0x4000, r1, r2 + 1#32, r3, r5, r6, r2 + 1#32, 0x4000 + (r2 + 1#32), 296, _, room⟩ s2 at h2
  rw [hp] at h2
  have hn : (BitVec.ofNat 32 pos : Word).toNat = pos := toNat32 (by omega)
  refine On.mod hb hP h2 (d := 20) (n := 4) (y := BitVec.ofNat 32 pos) rfl rfl (by decide) rfl (by rw [hn]; omega) fun s3 a3 h3 => ?_
  refine On.run hb hP h3 1 rfl fun s4 a4 h4 => ?_
  have hx : (0x4000 + BitVec.ofNat 32 pos - BitVec.ofNat 32 ((BitVec.ofNat 32 pos).toNat % 4) : Word).toNat = 0x4000 + 4 * (pos / 4) := by
    rw [hn, BitVec.toNat_sub, BitVec.toNat_add, hn, toNat32 (by omega)]
    show (2 ^ 32 - pos % 4 + (0x4000 + pos) % 2 ^ 32) % 2 ^ 32 = _
    omega
  refine On.lsa hb hP h4 (d := 0) (r := 21) (x := 0x4000 + BitVec.ofNat 32 pos - BitVec.ofNat 32 ((BitVec.ofNat 32 pos).toNat % 4)) rfl rfl rfl rfl
    (by rw [hx]; omega) (line_read hb hx (by omega) hw) fun s5 a5 h5 => ?_
  refine On.run hb hP h5 1 rfl fun s6 a6 h6 => ?_
  refine On.mod hb hP h6 (d := 21) (n := 4) (y := BitVec.ofNat 32 pos) rfl rfl (by decide) rfl (by rw [hn]; omega) fun s7 a7 h7 => ?_
  refine On.run hb hP h7 4 rfl fun s8 a8 h8 => ?_
  change On fx ids (g.m ids lines keys) ⟨(w <<< ((BitVec.ofNat 32 ((BitVec.ofNat 32 pos).toNat % 4) * 8#32 : Word).toNat % 32)) >>> (24 % 32), 0x4000, r1,
    BitVec.ofNat 32 pos, r3, r5, r6, BitVec.ofNat 32 ((BitVec.ofNat 32 pos).toNat % 4), BitVec.ofNat 32 ((BitVec.ofNat 32 pos).toNat % 4) * 8#32,
    (BitVec.ofNat 32 (pc + 4) : Word).toNat, stk, room + 1⟩ s8 at h8
  have hy : (BitVec.ofNat 32 ((BitVec.ofNat 32 pos).toNat % 4) * 8#32 : Word).toNat = 8 * (pos % 4) := by
    rw [hn, BitVec.toNat_mul, toNat32 (by omega)]
    show pos % 4 * 8 % 2 ^ 32 = _
    omega
  have ha : (w <<< ((BitVec.ofNat 32 ((BitVec.ofNat 32 pos).toNat % 4) * 8#32 : Word).toNat % 32)) >>> (24 % 32) =
      BitVec.ofNat 32 (charAt (bytes.take 4092) pos) := by
    apply BitVec.eq_of_toNat_eq
    rw [shifted w (j := pos % 4) (by omega) hy, ← hc, toNat32 (by have := charAt_lt (bytes.take 4092) pos; omega)]
  rw [ha, hbk] at h8
  exact hk s8 a8 _ _ h8

/-- `call pre_error`. -/
theorem preError (hb : Board pf fx) (hP : Closed pf P) (h : On fx ids (g.m ids lines keys) v s)
    (hf : v.fetch = some (.call 716)) (hr : 2 ≤ v.room) (p : Nat) (t : String) (hp : v.rr5 = BitVec.ofNat 32 p) (hm : (p, t) ∈ textAt)
    (hbuf : g.buf = List.replicate 1023 0)
    (hk : ∀ s' a' x y z, On fx ids (G.m { g with texts := g.texts ++ [shown "\n===> ERROR: At character ".toList, shown "\n     ".toList, shown t.toList],
                                                 nums := g.nums ++ [(v.rr2 + 1#32, .dec, true)] } ids lines keys)
      (((v.set 19 x).set 20 y).put 21 z) s' → P s' a') : P s a := by
  have hbk := back hf
  obtain ⟨a0, r0, r1, r2, r3, r5, r6, r7, av, pc, stk, _ | _ | room⟩ := v
  · exact absurd (show 2 ≤ 0 from hr) (by decide)
  · exact absurd (show 2 ≤ 1 from hr) (by decide)
  dsimp only at hp hbk hk
  refine On.exec1 hb hP h hf rfl fun s1 a1 h1 => ?_
  refine On.run hb hP h1 1 rfl fun s2 a2 h2 => ?_
  refine printMsg hb hP h2 rfl (Nat.succ_pos _) 904 "\n===> ERROR: At character " rfl (by decide) hbuf fun s3 a3 x3 y3 z3 h3 => ?_
  refine On.run hb hP h3 2 rfl fun s4 a4 h4 => ?_
  refine printDec hb hP h4 rfl (Nat.succ_pos _) fun s5 a5 h5 => ?_
  refine On.run hb hP h5 1 rfl fun s6 a6 h6 => ?_
  refine printMsg hb hP h6 rfl (Nat.succ_pos _) 936 "\n     " rfl (by decide) hbuf fun s7 a7 x7 y7 z7 h7 => ?_
  refine On.run hb hP h7 1 rfl fun s8 a8 h8 => ?_
  refine printMsg hb hP h8 rfl (Nat.succ_pos _) p t hp hm hbuf fun s9 a9 x9 y9 z9 h9 => ?_
  refine On.run hb hP h9 1 rfl fun s10 a10 h10 => hk s10 a10 x9 y9 z9 ?_
  show On fx ids _ ⟨a0, r0, r1, r2, r3, r5, x9, y9, z9, pc + 4, stk, room + 1 + 1⟩ s10
  rw [← hbk]
  dsimp only at h10
  rw [List.append_assoc, List.append_assoc] at h10
  exact h10

/-- `call post_error`. -/
theorem postError (hb : Board pf fx) (hP : Closed pf P) (h : On fx ids (g.m ids lines keys) v s)
    (hf : v.fetch = some (.call 756)) (hr : 2 ≤ v.room) (hbuf : g.buf = List.replicate 1023 0)
    (hk : ∀ s' a' x y z, On fx ids (G.m { g with texts := g.texts ++ [shown "\n\nNow exiting after error.\n".toList] } ids lines keys)
      (((v.set 19 x).set 20 y).put 21 z) s' → P s' a') : P s a := by
  have hbk := back hf
  obtain ⟨a0, r0, r1, r2, r3, r5, r6, r7, av, pc, stk, _ | _ | room⟩ := v
  · exact absurd (show 2 ≤ 0 from hr) (by decide)
  · exact absurd (show 2 ≤ 1 from hr) (by decide)
  dsimp only at hbk hk
  refine On.exec1 hb hP h hf rfl fun s1 a1 h1 => ?_
  refine On.run hb hP h1 1 rfl fun s2 a2 h2 => ?_
  refine printMsg hb hP h2 rfl (Nat.succ_pos _) 948 "\n\nNow exiting after error.\n" rfl (by decide) hbuf fun s3 a3 x3 y3 z3 h3 => ?_
  refine On.run hb hP h3 1 rfl fun s4 a4 h4 => hk s4 a4 x3 y3 z3 ?_
  show On fx ids _ ⟨a0, r0, r1, r2, r3, r5, x3, y3, z3, pc + 4, stk, room + 1 + 1⟩ s4
  rw [← hbk]
  exact h4

/-! ## Choosing what to do -/

theorem ofNat_inj {m n : Nat} (hm : m < 2 ^ 32) (hn : n < 2 ^ 32) : BitVec.ofNat 32 m = BitVec.ofNat 32 n ↔ m = n := by
  constructor
  · intro h
    have := congrArg BitVec.toNat h
    rwa [toNat32 hm, toNat32 hn] at this
  · rintro rfl; rfl

section
variable {m : M} {c n t pc room : Nat} {r0 r1 r2 r3 r5 r6 r7 av : Word} {stk : List Word}

/-- A comparison of the character, and a jump. -/
theorem test (hb : Board pf fx) (hP : Closed pf P)
    (h : On fx ids m ⟨BitVec.ofNat 32 c, r0, r1, r2, r3, r5, r6, r7, av, pc, stk, room⟩ s) (hc : c < 256)
    (h1 : fetchAt pc = some (.cmpL 0 n)) (h2 : fetchAt (pc + 4) = some .ifeq) (h3 : fetchAt (pc + 8) = some (.jp t)) (hn : n < 256)
    (yes : c = n → ∀ s' a', On fx ids m ⟨BitVec.ofNat 32 c, r0, r1, r2, r3, r5, r6, r7, av, t, stk, room⟩ s' → P s' a')
    (no : c ≠ n → ∀ s' a', On fx ids m ⟨BitVec.ofNat 32 c, r0, r1, r2, r3, r5, r6, r7, av, pc + 12, stk, room⟩ s' → P s' a') : P s a := by
  refine On.ifeq hb hP h (r := 0) (n := n) (x := BitVec.ofNat 32 c) h1 rfl rfl h2 (fun he s1 a1 hh => ?_) (fun he s1 a1 hh => ?_)
  · refine On.exec1 hb hP hh (i := .jp t) h3 rfl fun s2 a2 h2 => yes ?_ s2 a2 h2
    rwa [ofNat_inj (by omega) (by omega)] at he
  · refine no ?_ s1 a1 hh
    rwa [ne_eq, ofNat_inj (by omega) (by omega)] at he

/-- The characters that are understood and the addresses of what they do. -/
def actions : List (Nat × Nat) := [(62, 500), (60, 508), (43, 516), (45, 532), (46, 548), (44, 560), (91, 572), (93, 648)]

/-- What the interpreter does with a character. -/
theorem dispatch (hb : Board pf fx) (hP : Closed pf P)
    (h : On fx ids m ⟨BitVec.ofNat 32 c, r0, r1, r2, r3, r5, r6, r7, av, 184, stk, room⟩ s) (hc : c < 256)
    (hend : c = 0 ∨ c = 10 ∨ c = 13 → ∀ s' a',
      On fx ids m ⟨BitVec.ofNat 32 c, r0, r1, r2, r3, r5, r6, r7, av, 224, stk, room⟩ s' → P s' a')
    (hact : ∀ t, (c, t) ∈ actions → ∀ s' a',
      On fx ids m ⟨BitVec.ofNat 32 c, r0, r1, r2, r3, r5, r6, r7, av, t, stk, room⟩ s' → P s' a')
    (helse : ¬ (c = 0 ∨ c = 10 ∨ c = 13) → c ≠ 62 → c ≠ 60 → c ≠ 43 → c ≠ 45 → c ≠ 46 → c ≠ 44 → c ≠ 91 → c ≠ 93 → ∀ s' a',
      On fx ids m ⟨BitVec.ofNat 32 c, r0, r1, r2, r3, r5, r6, r7, av, 428, stk, room⟩ s' → P s' a') : P s a := by
  refine test hb hP h hc (n := 0) (t := 224) rfl rfl rfl (by decide) (fun e => hend (.inl e)) fun n0 s1 a1 h1 => ?_
  refine test hb hP h1 hc (n := 13) (t := 224) rfl rfl rfl (by decide) (fun e => hend (.inr (.inr e))) fun n1 s2 a2 h2 => ?_
  refine test hb hP h2 hc (n := 10) (t := 224) rfl rfl rfl (by decide) (fun e => hend (.inr (.inl e))) fun n2 s3 a3 h3 => ?_
  refine On.run hb hP h3 1 rfl fun s4 a4 h4 => ?_
  refine test hb hP h4 hc (n := 62) (t := 500) rfl rfl rfl (by decide) (fun e => hact 500 (by rw [e]; decide)) fun n4 s5 a5 h5 => ?_
  refine test hb hP h5 hc (n := 60) (t := 508) rfl rfl rfl (by decide) (fun e => hact 508 (by rw [e]; decide)) fun n5 s6 a6 h6 => ?_
  refine test hb hP h6 hc (n := 43) (t := 516) rfl rfl rfl (by decide) (fun e => hact 516 (by rw [e]; decide)) fun n6 s7 a7 h7 => ?_
  refine test hb hP h7 hc (n := 45) (t := 532) rfl rfl rfl (by decide) (fun e => hact 532 (by rw [e]; decide)) fun n7 s8 a8 h8 => ?_
  refine test hb hP h8 hc (n := 46) (t := 548) rfl rfl rfl (by decide) (fun e => hact 548 (by rw [e]; decide)) fun n8 s9 a9 h9 => ?_
  refine test hb hP h9 hc (n := 44) (t := 560) rfl rfl rfl (by decide) (fun e => hact 560 (by rw [e]; decide)) fun n9 s10 a10 h10 => ?_
  refine test hb hP h10 hc (n := 91) (t := 572) rfl rfl rfl (by decide) (fun e => hact 572 (by rw [e]; decide)) fun n10 s11 a11 h11 => ?_
  refine test hb hP h11 hc (n := 93) (t := 648) rfl rfl rfl (by decide) (fun e => hact 648 (by rw [e]; decide)) fun n11 s12 a12 h12 => ?_
  exact helse (by omega) n4 n5 n6 n7 n8 n9 n10 n11 s12 a12 h12

end

/-! ## The state of the interpreter -/

/-- The texts displayed before the program is interpreted. -/
def begun : List DecodedStr :=
  [shown "\n=== Welcome to the BrainFuck interpreter! ===\n\nPlease type your BrainFuck program here:\n\n".toList,
    shown "\n=> Now running your program...\n\n".toList]

/-- The components contain what the state says. -/
structure Rel (lines : Nat → List Char) (st : St) (g : G) : Prop where
  cellsLen : g.cells.length = 4096
  cells : ∀ i, i < 1024 → g.cells[i]? = some (st.cells i)
  line : ∀ i, i < 1023 → g.line[i]? = some (wordAt (utf8 (lines 0)) i)
  asked : g.keysAsked = st.asked
  buf : g.buf = List.replicate 1023 0
  texts : g.texts = begun
  chars : g.chars = st.out
  nums : g.nums = []

/-- The stack while a character is interpreted. -/
def stackOf (st : St) : List Word := st.loops.map (BitVec.ofNat 32) ++ [36#32]

/-- The machine is about to interpret a character. -/
def At (fx : Fixed) (ids : Nat → U64) (lines : Nat → List Char) (keys : Nat → Char) (st : St) (s : Machine Dev) : Prop :=
  ∃ g a0 r2 r5 r6 r7 av room, Rel lines st g ∧ st.pos ≤ 4092 ∧ (∀ p ∈ st.loops, p ≤ 4092) ∧ room + 2 + st.loops.length = 1023 ∧
    r2 + 1#32 = BitVec.ofNat 32 st.pos ∧
    On fx ids (g.m ids lines keys) ⟨a0, 0x4000, 0x2000 + st.ptr, r2, BitVec.ofNat 32 st.loops.length, r5, r6, r7, av, 180, stackOf st, room + 2⟩ s

/-- What the components contain at the end. -/
structure Final (st : St) (e : End) (g : G) : Prop where
  cells : ∀ i, i < 1024 → g.cells[i]? = some (st.cells i)
  asked : g.keysAsked = st.asked
  texts : g.texts = begun ++ (texts e).map fun t => shown t.toList
  chars : g.chars = st.out ++ Lang.chars e
  nums : g.nums = numbers st e

theorem addr_aligned (x : Word) : (0x2000 + x : Word).toNat % 4 = x.toNat % 4 := by
  rw [BitVec.toNat_add]
  show (0x2000 + x.toNat) % 2 ^ 32 % 4 = _
  omega

theorem addr_inside {x : Word} (h : x.toNat < 4096) : (0x2000 + x : Word).toNat = 0x2000 + x.toNat := by
  rw [BitVec.toNat_add]
  show (0x2000 + x.toNat) % 2 ^ 32 = _
  omega

end Lrvm.Brainfuck

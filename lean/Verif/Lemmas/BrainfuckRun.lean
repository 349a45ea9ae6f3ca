import Verif.Lemmas.ProgramMem
import Verif.Lemmas.BrainfuckAsm

/-!
# Running the program of the example `brainfuck`

`V` holds the registers that the program uses and its stack; `V.exec` runs the instructions that touch nothing else.
-/

namespace Lrvm.Brainfuck

open Spec Lasm Lrvm Prog

/-- The instructions of the program. -/
inductive I
  | cpyL (d n : Nat) | cpyR (d s : Nat) | jp (n : Nat)
  | addL (d n : Nat) | addR (d s : Nat) | subL (d n : Nat) | subR (d s : Nat) | mulL (d n : Nat)
  | modL (d n : Nat) | shlR (d s : Nat) | shrL (d n : Nat)
  | cmpL (s n : Nat) | ifeq | ifnq | jpr (n : Nat)
  | lsa (d s : Nat) | lea (s : Nat) | wea (s : Nat) | wsa (s n : Nat)
  | push (s : Nat) | pop (d : Nat) | call (n : Nat) | ret | halt
  deriving DecidableEq

/-- A byte. -/
def u8 (n : Nat) : U8 := BitVec.ofNat 8 n

/-- The word of an instruction. -/
def I.word : I → Word
  | .cpyL d n => instrWord 0x01 true false false (u8 d) (u8 (n / 256)) (u8 (n % 256))
  | .cpyR d s => instrWord 0x01 true true false (u8 d) (u8 s) 0
  | .jp n => instrWord 0x01 true false false 0x16 (u8 (n / 256)) (u8 (n % 256))
  | .addL d n => instrWord 0x03 true false false (u8 d) (u8 (n / 256)) (u8 (n % 256))
  | .addR d s => instrWord 0x03 true true false (u8 d) (u8 s) 0
  | .subL d n => instrWord 0x04 true false false (u8 d) (u8 (n / 256)) (u8 (n % 256))
  | .subR d s => instrWord 0x04 true true false (u8 d) (u8 s) 0
  | .mulL d n => instrWord 0x05 true false false (u8 d) (u8 (n / 256)) (u8 (n % 256))
  | .modL d n => instrWord 0x07 true false true (u8 d) (u8 n) 0
  | .shlR d s => instrWord 0x0B true true false (u8 d) (u8 s) 0
  | .shrL d n => instrWord 0x0C true false false (u8 d) (u8 n) 0
  | .cmpL s n => instrWord 0x0D true false false (u8 s) (u8 (n / 256)) (u8 (n % 256))
  | .ifeq => instrWord 0x11 false false false 0 0 0
  | .ifnq => instrWord 0x12 false false false 0 0 0
  | .jpr n => instrWord 0x0E false false false (u8 (n / 256)) (u8 (n % 256)) 0
  | .lsa d s => instrWord 0x14 true true false (u8 d) (u8 s) 0
  | .lea s => instrWord 0x15 true true false (u8 s) 0 0
  | .wea s => instrWord 0x17 true true false (u8 s) 0 0
  | .wsa s n => instrWord 0x16 true false false (u8 s) 0 (u8 n)
  | .push s => instrWord 0x19 true false false (u8 s) 0 0
  | .pop d => instrWord 0x1A true false false (u8 d) 0 0
  | .call n => instrWord 0x1B false false false (u8 (n / 256)) (u8 (n % 256)) 0
  | .ret => instrWord 0x1A true false false 0x16 0 0
  | .halt => instrWord 0x1E false false false 0 0 0

/-- The instructions. -/
def code : List I :=
  [.cpyL 24 8192, .cpyL 19 768, .call 48, .call 100, .cpyL 19 864, .call 48, .cpyL 13 16384, .cpyL 14 8192, .call 168,
    .cpyL 19 1132, .call 48, .halt, .cpyL 20 12288, .lea 19, .cmpL 21 0, .ifeq, .jp 84, .wea 20, .addL 19 4, .addL 20 4,
    .jp 52, .cpyL 21 16380, .wsa 21 170, .wsa 21 255, .ret, .cpyL 20 20476, .wsa 20 170, .ret, .cpyL 20 20484, .wsa 20 1,
    .cpyL 20 20480, .lea 20, .ret, .cpyL 20 20488, .wea 20, .ret, .cpyL 20 20524, .wea 20, .ret, .cpyL 20 20500, .wea 20,
    .ret, .cpyL 15 0, .cpyL 16 0, .subL 15 1, .call 280, .cmpL 0 0, .ifeq, .jp 224, .cmpL 0 13, .ifeq, .jp 224, .cmpL 0 10,
    .ifeq, .jp 224, .jp 332, .cmpL 16 0, .ifeq, .ret, .cpyL 18 1040, .call 716, .cpyR 21 16, .call 156, .cpyL 19 1088,
    .call 48, .pop 21, .addL 21 1, .call 156, .call 756, .halt, .addL 15 1, .cpyR 21 13, .addR 21 15, .cpyR 20 15,
    .modL 20 4, .subR 21 20, .lsa 0 21, .cpyR 21 15, .modL 21 4, .mulL 21 8, .shlR 0 21, .shrL 0 24, .ret, .cmpL 0 62,
    .ifeq, .jp 500, .cmpL 0 60, .ifeq, .jp 508, .cmpL 0 43, .ifeq, .jp 516, .cmpL 0 45, .ifeq, .jp 532, .cmpL 0 46, .ifeq,
    .jp 548, .cmpL 0 44, .ifeq, .jp 560, .cmpL 0 91, .ifeq, .jp 572, .cmpL 0 93, .ifeq, .jp 648, .cpyL 18 980, .call 716,
    .cpyL 21 39, .call 132, .cpyR 21 0, .call 132, .cpyL 21 39, .call 132, .cpyL 21 32, .call 132, .cpyL 21 40, .call 132,
    .cpyR 21 0, .call 144, .cpyL 21 41, .call 132, .call 756, .halt, .addL 14 1, .jp 180, .subL 14 1, .jp 180, .lea 14,
    .addL 21 1, .wea 14, .jp 180, .lea 14, .subL 21 1, .wea 14, .jp 180, .lea 14, .call 132, .jp 180, .call 112, .wea 14,
    .jp 180, .addL 16 1, .lea 14, .cmpL 21 0, .ifeq, .jp 600, .push 15, .jp 180, .call 280, .cmpL 0 93, .ifnq, .jpr 12,
    .subL 16 1, .jp 180, .cmpL 0 0, .jp 224, .cmpL 0 13, .ifeq, .jp 224, .jp 600, .cmpL 16 0, .ifeq, .jp 700, .subL 16 1,
    .lea 14, .cmpL 21 0, .ifnq, .jp 688, .pop 21, .jp 180, .pop 15, .subL 15 1, .jp 180, .cpyL 18 1000, .call 716,
    .call 756, .halt, .cpyL 19 904, .call 48, .cpyR 21 15, .addL 21 1, .call 156, .cpyL 19 936, .call 48, .cpyR 19 18,
    .call 48, .ret, .cpyL 19 948, .call 48, .ret]

/-- The messages. -/
def strings : List Word :=
  [0x0a3d3d3d, 0x2057656c, 0x636f6d65, 0x20746f20, 0x74686520, 0x42726169, 0x6e467563, 0x6b20696e, 0x74657270, 0x72657465,
    0x7221203d, 0x3d3d0a0a, 0x506c6561, 0x73652074, 0x79706520, 0x796f7572, 0x20427261, 0x696e4675, 0x636b2070, 0x726f6772,
    0x616d2068, 0x6572653a, 0x0a0a0000, 0x00000000, 0x0a3d3e20, 0x4e6f7720, 0x72756e6e, 0x696e6720, 0x796f7572, 0x2070726f,
    0x6772616d, 0x2e2e2e0a, 0x0a000000, 0x00000000, 0x0a3d3d3d, 0x3e204552, 0x524f523a, 0x20417420, 0x63686172, 0x61637465,
    0x72200000, 0x00000000, 0x0a202020, 0x20200000, 0x00000000, 0x0a0a4e6f, 0x77206578, 0x6974696e, 0x67206166, 0x74657220,
    0x6572726f, 0x722e0a00, 0x00000000, 0x556e6b6e, 0x6f776e20, 0x73796d62, 0x6f6c2000, 0x00000000, 0x4e6f206c, 0x6f6f7020,
    0x6f70656e, 0x65642c20, 0x63616e6e, 0x6f742063, 0x6c6f7365, 0x206f6e65, 0x2e000000, 0x00000000, 0x50726f67, 0x72616d20,
    0x65786974, 0x65642062, 0x65666f72, 0x6520636c, 0x6f73696e, 0x6720616c, 0x6c206c6f, 0x6f70733a, 0x20000000, 0x00000000,
    0x20776572, 0x65206e6f, 0x7420636c, 0x6f736564, 0x2c206c61, 0x7374206f, 0x6e652061, 0x74206368, 0x61726163, 0x74657220,
    0x00000000, 0x0a0a3d3d, 0x3d20476f, 0x6f646279, 0x6521203d, 0x3d3d0a00, 0x00000000]

theorem words_eq : words = code.map I.word ++ strings := by decide +kernel

/-- The registers that are followed. -/
def tr (n : Nat) : Bool := n = 0 || n = 13 || n = 14 || n = 15 || n = 16 || n = 18 || n = 19 || n = 20 || n = 21

/-- The literals and registers of the instructions are in range. -/
def I.ok : I → Bool
  | .cpyL d n | .addL d n | .subL d n | .mulL d n | .cmpL d n => d < 32 && n < 65536
  | .cpyR d s | .addR d s | .subR d s | .shlR d s | .lsa d s => d < 32 && s < 32
  | .modL d n | .shrL d n | .wsa d n => d < 32 && n < 256
  | .jp n | .call n => n < 65536
  | .jpr n => n < 32768
  | .lea s | .wea s | .push s | .pop s => s < 32
  | .ifeq | .ifnq | .ret | .halt => true

theorem code_ok : ∀ i ∈ code, i.ok = true := by decide +kernel

/-- The registers that the program uses, its position, the contents of the stack (the top first), and how many more words
may be pushed. -/
structure V where
  a0 : Word
  rr0 : Word
  rr1 : Word
  rr2 : Word
  rr3 : Word
  rr5 : Word
  rr6 : Word
  rr7 : Word
  avr : Word
  pc : Nat
  stack : List Word
  room : Nat

/-- A register. -/
def V.get (v : V) : Nat → Word
  | 0 => v.a0 | 13 => v.rr0 | 14 => v.rr1 | 15 => v.rr2 | 16 => v.rr3 | 18 => v.rr5 | 19 => v.rr6 | 20 => v.rr7 | 21 => v.avr
  | _ => 0

/-- Assign a register. -/
def V.set : V → Nat → Word → V
  | ⟨a0, r0, r1, r2, r3, r5, r6, r7, av, pc, k, n⟩, d, w =>
    match d with
    | 0 => ⟨w, r0, r1, r2, r3, r5, r6, r7, av, pc, k, n⟩
    | 13 => ⟨a0, w, r1, r2, r3, r5, r6, r7, av, pc, k, n⟩
    | 14 => ⟨a0, r0, w, r2, r3, r5, r6, r7, av, pc, k, n⟩
    | 15 => ⟨a0, r0, r1, w, r3, r5, r6, r7, av, pc, k, n⟩
    | 16 => ⟨a0, r0, r1, r2, w, r5, r6, r7, av, pc, k, n⟩
    | 18 => ⟨a0, r0, r1, r2, r3, w, r6, r7, av, pc, k, n⟩
    | 19 => ⟨a0, r0, r1, r2, r3, r5, w, r7, av, pc, k, n⟩
    | 20 => ⟨a0, r0, r1, r2, r3, r5, r6, w, av, pc, k, n⟩
    | 21 => ⟨a0, r0, r1, r2, r3, r5, r6, r7, w, pc, k, n⟩
    | _ => ⟨a0, r0, r1, r2, r3, r5, r6, r7, av, pc, k, n⟩

/-- Go to another position, given the present one. -/
def V.goto : V → (Nat → Nat) → V
  | ⟨a0, r0, r1, r2, r3, r5, r6, r7, av, pc, k, n⟩, f => ⟨a0, r0, r1, r2, r3, r5, r6, r7, av, f pc, k, n⟩

/-- Go to another position. -/
def V.to : V → Nat → V
  | ⟨a0, r0, r1, r2, r3, r5, r6, r7, av, _, k, n⟩, pc => ⟨a0, r0, r1, r2, r3, r5, r6, r7, av, pc, k, n⟩

/-- Change the stack. -/
def V.stacked : V → List Word → Nat → V
  | ⟨a0, r0, r1, r2, r3, r5, r6, r7, av, pc, _, _⟩, k, n => ⟨a0, r0, r1, r2, r3, r5, r6, r7, av, pc, k, n⟩

/-- Go on. -/
def V.next (v : V) : V := v.goto (· + 4)

/-- Assign a register and go on. -/
def V.put (v : V) (d : Nat) (w : Word) : V := (v.set d w).next

theorem tr_cases {n : Nat} (h : tr n = true) : n = 0 ∨ n = 13 ∨ n = 14 ∨ n = 15 ∨ n = 16 ∨ n = 18 ∨ n = 19 ∨ n = 20 ∨ n = 21 := by
  simpa [tr, or_assoc] using h

theorem tr_facts {n : Nat} (h : tr n = true) : n < 32 ∧ mayWrite true n = true ∧ n ≠ 22 ∧ n ≠ 23 ∧ n ≠ 24 ∧ n ≠ 31 ∧ n ≠ 29 ∧ n ≠ 26 ∧
    (u8 n).toNat = n := by
  rcases tr_cases h with rfl | rfl | rfl | rfl | rfl | rfl | rfl | rfl | rfl <;> decide

theorem get_put (v : V) {d n : Nat} (w : Word) (hd : tr d = true) (hn : tr n = true) :
    (v.put d w).get n = if n = d then w else v.get n := by
  rcases tr_cases hd with rfl | rfl | rfl | rfl | rfl | rfl | rfl | rfl | rfl <;>
    rcases tr_cases hn with rfl | rfl | rfl | rfl | rfl | rfl | rfl | rfl | rfl <;> rfl

theorem put_rest (v : V) (d : Nat) (w : Word) : (v.put d w).pc = v.pc + 4 ∧ (v.put d w).stack = v.stack ∧
    (v.put d w).room = v.room := by
  obtain ⟨⟩ := v
  unfold V.put V.set
  dsimp only
  refine ⟨?_, ?_, ?_⟩ <;> split <;> rfl

/-- The instruction at an address. -/
def fetchAt (pc : Nat) : Option I := if pc % 4 = 0 then code[pc / 4]? else none

/-- The instruction at the position. -/
def V.fetch : V → Option I
  | ⟨_, _, _, _, _, _, _, _, _, pc, _, _⟩ => fetchAt pc

/-- The instructions that only use the registers and the stack. -/
def V.exec (v : V) : I → Option V
  | .cpyL d n => if tr d then some (v.put d (BitVec.ofNat 32 n)) else none
  | .cpyR d s => if tr d && tr s then some (v.put d (v.get s)) else none
  | .jp n => some (v.to n)
  | .addL d n => if tr d then some (v.put d (v.get d + BitVec.ofNat 32 n)) else none
  | .addR d s => if tr d && tr s then some (v.put d (v.get d + v.get s)) else none
  | .subL d n => if tr d then some (v.put d (v.get d - BitVec.ofNat 32 n)) else none
  | .subR d s => if tr d && tr s then some (v.put d (v.get d - v.get s)) else none
  | .mulL d n => if tr d then some (v.put d (v.get d * BitVec.ofNat 32 n)) else none
  | .shlR d s => if tr d && tr s then some (v.put d (v.get d <<< ((v.get s).toNat % 32))) else none
  | .shrL d n => if tr d then some (v.put d (v.get d >>> (n % 32))) else none
  | .cmpL s _ => if tr s then some v.next else none
  | .jpr n => some (v.goto (· + n))
  | .push s =>
    match v.room with
    | r + 1 => if tr s then some (v.next.stacked (v.get s :: v.stack) r) else none
    | 0 => none
  | .pop d =>
    match v.stack with
    | w :: l => if tr d then some ((v.put d w).stacked l (v.room + 1)) else none
    | [] => none
  | .call n =>
    match v.room with
    | r + 1 => some ((v.to n).stacked (BitVec.ofNat 32 (v.pc + 4) :: v.stack) r)
    | 0 => none
  | .ret =>
    match v.stack with
    | w :: l => some ((v.to w.toNat).stacked l (v.room + 1))
    | [] => none
  | _ => none

/-- Several instructions. -/
def V.run : Nat → V → Option V
  | 0, v => some v
  | n + 1, v =>
    match v.fetch with
    | none => none
    | some i =>
      match v.exec i with
      | none => none
      | some v' => V.run n v'

/-- The components other than the program and the stack. -/
structure M where
  cells : List Word
  disp : BufferedDisplay
  line : SyncLineKeyboard
  key : SyncCharKeyboard
  cd : CharDisplay
  nd : NumberDisplay

/-- The memory of the program. -/
def rom (id : U64) : BootRom := { storage := words, len := 289, size := 0x400, hwId := id }

/-- The components while the program runs. -/
def comps (ids : Nat → U64) (st : List Word) (m : M) : List Dev :=
  [.inl (rom (ids 0)), .inr (.inl ⟨st, 0x400, ids 1⟩), .inr (.inl ⟨m.cells, 0x400, ids 2⟩), .inr (.inr (.inl m.disp)),
    .inr (.inr (.inr (.inl m.line))), .inr (.inr (.inr (.inr (.inl m.key)))), .inr (.inr (.inr (.inr (.inr (.inl m.cd))))),
    .inr (.inr (.inr (.inr (.inr (.inr m.nd)))))]

/-- Where the components are: number, address, size. -/
def table : List (Nat × Nat × Nat) :=
  [(0, 0, 0x1000), (1, 0x1000, 0x1000), (2, 0x2000, 0x1000), (3, 0x3000, 0x1000), (4, 0x4000, 0x1000), (5, 0x5000, 8),
    (6, 0x5008, 4), (7, 0x500C, 64)]

/-- What is known of the board. -/
structure Board (pf : Profile) (fx : Fixed) : Prop where
  table : TableOk pf fx.maps
  part : ∀ k b n, (k, b, n) ∈ Brainfuck.table → ∃ m ∈ fx.maps, m.auxId = k ∧ m.addr.toNat = b ∧ m.size.toNat = n

variable {pf : Profile} {fx : Fixed} {ids : Nat → U64} {m m' : M} {v v' : V} {s : Machine Dev} {P : Machine Dev → Word → Prop}
  {a : Word} {st st' : List Word} {devs : List Dev}

theorem table_facts : ∀ e ∈ Brainfuck.table, e.2.1 % 4 = 0 ∧ e.2.1 + e.2.2 < 2 ^ 32 := by decide

theorem offset {k b n : Nat} (ht : (k, b, n) ∈ Brainfuck.table) {mm : Mapping} (h1 : mm.addr.toNat = b) {x : Word} {off : Nat}
    (hx : x.toNat = b + off) : x - mm.addr = BitVec.ofNat 32 off := by
  have := table_facts _ ht
  apply BitVec.eq_of_toNat_eq
  rw [BitVec.toNat_sub, BitVec.toNat_ofNat, h1, hx]
  dsimp only at this
  omega

theorem Board.reads (hb : Board pf fx) {k b n off : Nat} {x w : Word} {d d' : Dev} (ht : (k, b, n) ∈ Brainfuck.table)
    (hx : x.toNat = b + off) (hn : off < n) (hal : off % 4 = 0) (hd : devs[k]? = some d)
    (hr : Bus.read d (BitVec.ofNat 32 off) 0 = some (d', w, 0)) : Reads pf fx.maps devs x w (devs.set k d') := by
  obtain ⟨mm, hm, h0, h1, h2⟩ := hb.part k b n ht
  have hf : b % 4 = 0 := (table_facts _ ht).1
  have := Reads.of hb.table hm (b := x) (devs := devs) (by unfold covers; rw [h1, h2, hx]; omega) (by rw [hx]; omega)
    (by rw [h0]; exact hd) (by rw [offset ht h1 hx]; exact hr)
  rw [h0] at this
  exact this

theorem Board.writes (hb : Board pf fx) {k b n off : Nat} {x w : Word} {d d' : Dev} (ht : (k, b, n) ∈ Brainfuck.table)
    (hx : x.toNat = b + off) (hn : off < n) (hal : off % 4 = 0) (hd : devs[k]? = some d)
    (hr : Bus.write d (BitVec.ofNat 32 off) w 0 = some (d', 0)) : Writes pf fx.maps devs x w (devs.set k d') := by
  obtain ⟨mm, hm, h0, h1, h2⟩ := hb.part k b n ht
  have hf : b % 4 = 0 := (table_facts _ ht).1
  have := Writes.of hb.table hm (b := x) (w := w) (devs := devs) (by unfold covers; rw [h1, h2, hx]; omega) (by rw [hx]; omega)
    (by rw [h0]; exact hd) (by rw [offset ht h1 hx]; exact hr)
  rw [h0] at this
  exact this

theorem rom_reads (hb : Board pf fx) {i : Nat} {x w : Word} (hx : x.toNat = 4 * i) (h : words[i]? = some w) :
    Reads pf fx.maps (comps ids st m) x w (comps ids st m) := by
  have hi : i < 289 := by
    have := (List.getElem?_eq_some_iff.1 h).1
    rwa [show words.length = 289 from by decide +kernel] at this
  have hd : (BitVec.ofNat 32 (4 * i) / 4 : Word).toNat = i := by
    rw [BitVec.toNat_udiv, BitVec.toNat_ofNat]; show 4 * i % 2 ^ 32 / 4 = i; omega
  refine hb.reads (k := 0) (b := 0) (n := 0x1000) (off := 4 * i) (d := .inl (rom (ids 0))) (by decide) (by omega) (by omega) (by omega) rfl ?_
  show Option.map _ (if (BitVec.ofNat 32 (4 * i) / 4 : Word) < (rom (ids 0)).len then _ else _) = _
  rw [if_pos (by rw [BitVec.lt_def, hd]; exact hi), hd, show (rom (ids 0)).storage[i]? = some w from h]
  rfl

/-- Registers and stack of a running machine. -/
structure Holds (v : V) (R : Nat → Word) (st : List Word) : Prop where
  plain : Plain R
  pc : R 22 = BitVec.ofNat 32 v.pc
  sp : R 24 = BitVec.ofNat 32 (0x2000 - 4 * v.stack.length)
  regs : ∀ n, tr n = true → R n = v.get n
  len : st.length = 4096
  top : ∀ i w, v.stack[i]? = some w → st[1024 - v.stack.length + i]? = some w
  room : v.stack.length + v.room ≤ 1024

/-- The machine is in the state `v`, with the components `m`. -/
def On (fx : Fixed) (ids : Nat → U64) (m : M) (v : V) (s : Machine Dev) : Prop :=
  ∃ R st cyc, Shows fx s R (comps ids st m) cyc ∧ Holds v R st

theorem fetch_ok {i : I} (h : v.fetch = some i) : v.pc % 4 = 0 ∧ v.pc < 768 ∧ words[v.pc / 4]? = some i.word ∧ i.ok = true := by
  change fetchAt v.pc = some i at h
  unfold fetchAt at h
  split at h
  · next h4 =>
    obtain ⟨h1, h2⟩ := List.getElem?_eq_some_iff.1 h
    have hl : v.pc / 4 < 192 := h1
    refine ⟨h4, by omega, ?_, code_ok i (by rw [← h2]; exact List.getElem_mem h1)⟩
    rw [words_eq, List.getElem?_append_left (by rw [List.length_map]; exact h1), List.getElem?_map, h]
    rfl
  · cases h

theorem fetched (hb : Board pf fx) {i : I} {R : Nat → Word} (hh : Holds v R st) (h : v.fetch = some i) :
    Fetched pf fx R (comps ids st m) i.word := by
  obtain ⟨h1, h2, h3, _⟩ := fetch_ok h
  have hn : (R 22).toNat = v.pc := by rw [hh.pc, BitVec.toNat_ofNat]; omega
  exact ⟨hh.plain, by omega, rom_reads hb (by omega) h3⟩

theorem lit2 (R : Nat → Word) {n : Nat} (h : n < 65536) : opVal2 R false (u8 (n / 256)) (u8 (n % 256)) = BitVec.ofNat 32 n := by
  unfold opVal2 u8
  rw [if_neg (by decide), BitVec.toNat_ofNat, BitVec.toNat_ofNat]
  congr 1
  omega

theorem lit1 (R : Nat → Word) {n : Nat} (h : n < 256) : opVal1 R false (u8 n) = BitVec.ofNat 32 n := by
  unfold opVal1 u8
  rw [if_neg (by decide), BitVec.toNat_ofNat]
  congr 1
  omega

theorem reg2 {R : Nat → Word} (hh : Holds v R st) {n : Nat} (h : tr n = true) (q : U8) : opVal2 R true (u8 n) q = v.get n := by
  unfold opVal2
  rw [if_pos rfl, (tr_facts h).2.2.2.2.2.2.2.2, hh.regs n h]

theorem reg1 {R : Nat → Word} (hh : Holds v R st) {n : Nat} (h : tr n = true) : opVal1 R true (u8 n) = v.get n := by
  unfold opVal1
  rw [if_pos rfl, (tr_facts h).2.2.2.2.2.2.2.2, hh.regs n h]

theorem ofNat_add4 (n : Nat) : BitVec.ofNat 32 n + (4 : Word) = BitVec.ofNat 32 (n + 4) := (BitVec.ofNat_add n 4).symm

theorem Holds.put {R : Nat → Word} (hh : Holds v R st) {d : Nat} {w : Word} (hd : tr d = true) :
    Holds (v.put d w) (Prog.put R d w) st := by
  obtain ⟨t1, t2, t22, t23, t24, t31, t29, t26, _⟩ := tr_facts hd
  obtain ⟨p1, p2, p3⟩ := put_rest v d w
  refine ⟨hh.plain.put ⟨t31, t29, t26⟩, ?_, ?_, ?_, hh.len, by rw [p2]; exact hh.top, by rw [p2, p3]; exact hh.room⟩
  · rw [p1]; unfold Prog.put; rw [if_neg (Ne.symm t22), if_pos rfl, hh.pc, ofNat_add4]
  · rw [p2]; unfold Prog.put; rw [if_neg (Ne.symm t24), if_neg (by decide), hh.sp]
  · intro n hn
    have hn22 := (tr_facts hn).2.2.1
    rw [get_put v w hd hn]; unfold Prog.put; rw [if_neg hn22]
    split
    · rfl
    · exact hh.regs n hn

theorem Holds.flagged {R : Nat → Word} (hh : Holds v R st) {f : Word} : Holds v (Prog.flagged R f) st :=
  ⟨hh.plain.flagged, hh.pc, hh.sp, fun n hn => by
    unfold Prog.flagged; rw [if_neg (tr_facts hn).2.2.2.1, hh.regs n hn], hh.len, hh.top, hh.room⟩

theorem Holds.jump {R : Nat → Word} (hh : Holds v R st) {x : Word} {k : Nat} (hx : x = BitVec.ofNat 32 k) :
    Holds { v with pc := k } (Prog.jump R x) st :=
  ⟨hh.plain.jump, hx, hh.sp, fun n hn => by
    unfold Prog.jump; rw [if_neg (tr_facts hn).2.2.1]; exact hh.regs n hn, hh.len, hh.top, hh.room⟩

theorem Holds.pass {R : Nat → Word} (hh : Holds v R st) : Holds v.next (Prog.pass R) st :=
  hh.jump (by rw [hh.pc, ofNat_add4])

theorem Holds.pushed {R : Nat → Word} (hh : Holds v R st) {w : Word} {r : Nat} (hr : v.room = r + 1) :
    Holds { v with stack := w :: v.stack, room := r } (Prog.moved R (R 24 - 4)) (st.set (1023 - v.stack.length) w) ∧
      (R 24 - 4).toNat = 0x1000 + 4 * (1023 - v.stack.length) := by
  have hroom := hh.room
  have hlt : v.stack.length < 1024 := by omega
  have e : R 24 - 4 = BitVec.ofNat 32 (0x2000 - 4 * (w :: v.stack).length) := by
    rw [hh.sp, List.length_cons]
    apply BitVec.eq_of_toNat_eq
    rw [BitVec.toNat_sub, BitVec.toNat_ofNat, BitVec.toNat_ofNat]
    show (4294967296 - 4 + _ % 4294967296) % 4294967296 = _ % 4294967296
    omega
  refine ⟨⟨hh.plain.moved, hh.pc, e, fun n hn => ?_, by rw [List.length_set]; exact hh.len, ?_, ?_⟩, ?_⟩
  · unfold Prog.moved; rw [if_neg (tr_facts hn).2.2.2.2.1]; exact hh.regs n hn
  · intro i x hi
    show (st.set (1023 - v.stack.length) w)[1024 - (v.stack.length + 1) + i]? = some x
    cases i with
    | zero =>
      injection hi with hi
      rw [List.getElem?_set, if_pos (by omega), if_pos (by rw [hh.len]; omega), hi]
    | succ i =>
      rw [List.getElem?_set, if_neg (by omega), ← hh.top i x hi]
      congr 1; omega
  · show v.stack.length + 1 + r ≤ 1024; omega
  · rw [e, List.length_cons, BitVec.toNat_ofNat]; omega

theorem Holds.popped {R : Nat → Word} (hh : Holds v R st) {w : Word} {l : List Word} (hl : v.stack = w :: l) :
    Holds { v with stack := l, room := v.room + 1 } (Prog.moved R (R 24 + 4)) st ∧
      (R 24).toNat = 0x1000 + 4 * (1023 - l.length) ∧ st[1023 - l.length]? = some w := by
  have hroom := hh.room
  have hlen : v.stack.length = l.length + 1 := by rw [hl]; rfl
  refine ⟨⟨hh.plain.moved, hh.pc, ?_, fun n hn => ?_, hh.len, ?_, ?_⟩, ?_, ?_⟩
  · show R 24 + 4 = _
    rw [hh.sp, ofNat_add4, hlen]
    congr 1
    show 8192 - 4 * (l.length + 1) + 4 = 8192 - 4 * l.length
    omega
  · unfold Prog.moved; rw [if_neg (tr_facts hn).2.2.2.2.1]; exact hh.regs n hn
  · intro i x hi
    have := hh.top (i + 1) x (by rw [hl]; exact hi)
    rw [← this, hlen]
    congr 1
    show 1024 - l.length + i = _
    omega
  · show l.length + (v.room + 1) ≤ 1024; omega
  · rw [hh.sp, BitVec.toNat_ofNat, hlen]; omega
  · have := hh.top 0 w (by rw [hl]; rfl)
    rw [← this, hlen]; congr 1; omega

theorem stack_writes (hb : Board pf fx) {x w : Word} {k : Nat} (hx : x.toNat = 0x1000 + 4 * k) (hk : k < 1024)
    (hl : st.length = 4096) : Writes pf fx.maps (comps ids st m) x w (comps ids (st.set k w) m) := by
  refine hb.writes (k := 1) (b := 0x1000) (n := 0x1000) (off := 4 * k) (d := .inr (.inl ⟨st, 0x400, ids 1⟩)) (by decide) hx (by omega)
    (by omega) rfl ?_
  have hn : (BitVec.ofNat 32 (4 * k)).toNat / 4 = k := by rw [BitVec.toNat_ofNat]; omega
  show Option.map _ (Option.map _ ((vecWrite st (BitVec.ofNat 32 (4 * k)) w).bind _)) = _
  unfold vecWrite
  rw [hn, if_pos (by omega)]
  rfl

theorem stack_reads (hb : Board pf fx) {x w : Word} {k : Nat} (hx : x.toNat = 0x1000 + 4 * k) (hk : k < 1024)
    (hw : st[k]? = some w) : Reads pf fx.maps (comps ids st m) x w (comps ids st m) := by
  refine hb.reads (k := 1) (b := 0x1000) (n := 0x1000) (off := 4 * k) (d := .inr (.inl ⟨st, 0x400, ids 1⟩)) (by decide) hx (by omega)
    (by omega) rfl ?_
  have hn : (BitVec.ofNat 32 (4 * k)).toNat / 4 = k := by rw [BitVec.toNat_ofNat]; omega
  show Option.map _ (Option.map _ ((vecRead st (BitVec.ofNat 32 (4 * k))).bind _)) = _
  unfold vecRead
  rw [hn, hw]
  rfl

/-- One instruction on registers and the stack. -/
theorem On.exec1 (hb : Board pf fx) (hP : Closed pf P) (h : On fx ids m v s) {i : I} (hi : v.fetch = some i)
    (he : v.exec i = some v') (hk : ∀ s' a', On fx ids m v' s' → P s' a') : P s a := by
  obtain ⟨R, st, cyc, h, hh⟩ := h
  have hf := fetched (m := m) (ids := ids) hb hh hi
  have hok := (fetch_ok hi).2.2.2
  have go : ∀ {d : Nat} {w : Word} {s' : Machine Dev} {f : Word} {c : U128}, tr d = true →
      Shows fx s' (Prog.put (Prog.flagged R f) d w) (comps ids st m) c → On fx ids m (v.put d w) s' :=
    fun hd hs => ⟨_, _, _, hs, hh.flagged.put hd⟩
  cases i with
  | cpyL d n =>
    simp only [V.exec, Option.ite_none_right_eq_some, Option.some.injEq] at he
    obtain ⟨hd, rfl⟩ := he
    have ht := tr_facts hd
    simp only [I.ok, Bool.and_eq_true, decide_eq_true_eq] at hok
    refine Go.cpy hP h hf (by rw [ht.2.2.2.2.2.2.2.2]; exact ht.2.1) (by rw [ht.2.2.2.2.2.2.2.2]; exact ht.2.2.1) (by simp) ?_
    rw [lit2 _ hok.2, ht.2.2.2.2.2.2.2.2]
    exact fun s' hs => hk s' _ ⟨_, _, _, hs, hh.put hd⟩
  | cpyR d r =>
    simp only [V.exec, Option.ite_none_right_eq_some, Option.some.injEq, Bool.and_eq_true] at he
    obtain ⟨⟨hd, hr⟩, rfl⟩ := he
    have ht := tr_facts hd
    refine Go.cpy hP h hf (by rw [ht.2.2.2.2.2.2.2.2]; exact ht.2.1) (by rw [ht.2.2.2.2.2.2.2.2]; exact ht.2.2.1)
      (by rw [(tr_facts hr).2.2.2.2.2.2.2.2]; exact fun _ => (tr_facts hr).1) ?_
    rw [reg2 hh hr, ht.2.2.2.2.2.2.2.2]
    exact fun s' hs => hk s' _ ⟨_, _, _, hs, hh.put hd⟩
  | jp n =>
    simp only [V.exec, Option.some.injEq] at he
    subst he
    simp only [I.ok, decide_eq_true_eq] at hok
    refine Go.jp hP h hf (by simp) ?_
    rw [lit2 _ hok]
    exact fun s' hs => hk s' _ ⟨_, _, _, hs, hh.jump rfl⟩
  | addL d n =>
    simp only [V.exec, Option.ite_none_right_eq_some, Option.some.injEq] at he
    obtain ⟨hd, rfl⟩ := he
    have ht := tr_facts hd
    simp only [I.ok, Bool.and_eq_true, decide_eq_true_eq] at hok
    refine Go.add hP h hf (by rw [ht.2.2.2.2.2.2.2.2]; exact ht.2.1) (by rw [ht.2.2.2.2.2.2.2.2]; exact ht.2.2.1) (by simp) ?_
    rw [lit2 _ hok.2, ht.2.2.2.2.2.2.2.2, hh.regs d hd]
    exact fun s' hs => hk s' _ (go hd hs)
  | addR d r =>
    simp only [V.exec, Option.ite_none_right_eq_some, Option.some.injEq, Bool.and_eq_true] at he
    obtain ⟨⟨hd, hr⟩, rfl⟩ := he
    have ht := tr_facts hd
    refine Go.add hP h hf (by rw [ht.2.2.2.2.2.2.2.2]; exact ht.2.1) (by rw [ht.2.2.2.2.2.2.2.2]; exact ht.2.2.1)
      (by rw [(tr_facts hr).2.2.2.2.2.2.2.2]; exact fun _ => (tr_facts hr).1) ?_
    rw [reg2 hh hr, ht.2.2.2.2.2.2.2.2, hh.regs d hd]
    exact fun s' hs => hk s' _ (go hd hs)
  | subL d n =>
    simp only [V.exec, Option.ite_none_right_eq_some, Option.some.injEq] at he
    obtain ⟨hd, rfl⟩ := he
    have ht := tr_facts hd
    simp only [I.ok, Bool.and_eq_true, decide_eq_true_eq] at hok
    refine Go.sub hP h hf (by rw [ht.2.2.2.2.2.2.2.2]; exact ht.2.1) (by rw [ht.2.2.2.2.2.2.2.2]; exact ht.2.2.1) (by simp) ?_
    rw [lit2 _ hok.2, ht.2.2.2.2.2.2.2.2, hh.regs d hd]
    exact fun s' hs => hk s' _ (go hd hs)
  | subR d r =>
    simp only [V.exec, Option.ite_none_right_eq_some, Option.some.injEq, Bool.and_eq_true] at he
    obtain ⟨⟨hd, hr⟩, rfl⟩ := he
    have ht := tr_facts hd
    refine Go.sub hP h hf (by rw [ht.2.2.2.2.2.2.2.2]; exact ht.2.1) (by rw [ht.2.2.2.2.2.2.2.2]; exact ht.2.2.1)
      (by rw [(tr_facts hr).2.2.2.2.2.2.2.2]; exact fun _ => (tr_facts hr).1) ?_
    rw [reg2 hh hr, ht.2.2.2.2.2.2.2.2, hh.regs d hd]
    exact fun s' hs => hk s' _ (go hd hs)
  | mulL d n =>
    simp only [V.exec, Option.ite_none_right_eq_some, Option.some.injEq] at he
    obtain ⟨hd, rfl⟩ := he
    have ht := tr_facts hd
    simp only [I.ok, Bool.and_eq_true, decide_eq_true_eq] at hok
    refine Go.mul hP h hf (by rw [ht.2.2.2.2.2.2.2.2]; exact ht.2.1) (by rw [ht.2.2.2.2.2.2.2.2]; exact ht.2.2.1) (by simp) ?_
    rw [lit2 _ hok.2, ht.2.2.2.2.2.2.2.2, hh.regs d hd]
    exact fun s' f hs => hk s' _ (go hd hs)
  | shlR d r =>
    simp only [V.exec, Option.ite_none_right_eq_some, Option.some.injEq, Bool.and_eq_true] at he
    obtain ⟨⟨hd, hr⟩, rfl⟩ := he
    have ht := tr_facts hd
    refine Go.shl hP h hf (by rw [ht.2.2.2.2.2.2.2.2]; exact ht.2.1) (by rw [ht.2.2.2.2.2.2.2.2]; exact ht.2.2.1)
      (by rw [(tr_facts hr).2.2.2.2.2.2.2.2]; exact fun _ => (tr_facts hr).1) ?_
    rw [reg1 hh hr, ht.2.2.2.2.2.2.2.2, hh.regs d hd]
    exact fun s' hs => hk s' _ (go hd hs)
  | shrL d n =>
    simp only [V.exec, Option.ite_none_right_eq_some, Option.some.injEq] at he
    obtain ⟨hd, rfl⟩ := he
    have ht := tr_facts hd
    simp only [I.ok, Bool.and_eq_true, decide_eq_true_eq] at hok
    refine Go.shr hP h hf (by rw [ht.2.2.2.2.2.2.2.2]; exact ht.2.1) (by rw [ht.2.2.2.2.2.2.2.2]; exact ht.2.2.1) (by simp) ?_
    rw [lit1 _ hok.2, ht.2.2.2.2.2.2.2.2, hh.regs d hd, BitVec.toNat_ofNat, show n % 2 ^ 32 % 32 = n % 32 by omega]
    exact fun s' f hs => hk s' _ (go hd hs)
  | cmpL r n =>
    simp only [V.exec, Option.ite_none_right_eq_some, Option.some.injEq] at he
    obtain ⟨hd, rfl⟩ := he
    refine Go.cmp hP h hf (by rw [(tr_facts hd).2.2.2.2.2.2.2.2]; exact (tr_facts hd).1) (by simp) ?_
    exact fun s' hs => hk s' _ ⟨_, _, _, hs, hh.flagged.pass⟩
  | jpr n =>
    simp only [V.exec, Option.some.injEq] at he
    subst he
    simp only [I.ok, decide_eq_true_eq] at hok
    have e : (u8 (n / 256)).toNat * 256 + (u8 (n % 256)).toNat = n := by
      unfold u8; rw [BitVec.toNat_ofNat, BitVec.toNat_ofNat]; omega
    refine Go.jpr hP h hf (by unfold u8; rw [BitVec.toNat_ofNat]; omega) ?_
    rw [e]
    exact fun s' hs => hk s' _ ⟨_, _, _, hs, hh.jump (by rw [hh.pc, BitVec.ofNat_add])⟩
  | push r =>
    unfold V.exec at he
    dsimp only at he
    split at he
    · next k hroom =>
      simp only [Option.ite_none_right_eq_some, Option.some.injEq] at he
      obtain ⟨hd, rfl⟩ := he
      obtain ⟨h1, h2⟩ := hh.pushed (w := v.get r) hroom
      refine Go.push hP h hf (by rw [(tr_facts hd).2.2.2.2.2.2.2.2]; exact fun _ => (tr_facts hd).1) (by omega)
        (by rw [reg2 hh hd]; exact stack_writes hb h2 (by have := hh.room; omega) hh.len) ?_
      exact fun s' hs => hk s' _ ⟨_, _, _, hs, h1.pass⟩
    · cases he
  | pop d =>
    unfold V.exec at he
    dsimp only at he
    split at he
    · next w l hst =>
      simp only [Option.ite_none_right_eq_some, Option.some.injEq] at he
      obtain ⟨hd, rfl⟩ := he
      have ht := tr_facts hd
      obtain ⟨h1, h2, h3⟩ := hh.popped hst
      refine Go.pop hP h hf (w := w) (by rw [ht.2.2.2.2.2.2.2.2]; exact ht.2.1) (by rw [ht.2.2.2.2.2.2.2.2]; exact ht.2.2.1) (by omega)
        (stack_reads hb h2 (by omega) h3) ?_
      rw [ht.2.2.2.2.2.2.2.2]
      refine fun s' hs => hk s' _ ⟨_, _, _, hs, ?_⟩
      have := h1.put (w := w) hd
      have e : ({ v with stack := l, room := v.room + 1 } : V).put d w = (v.put d w).stacked l (v.room + 1) := by
        obtain ⟨⟩ := v
        rcases tr_cases hd with rfl | rfl | rfl | rfl | rfl | rfl | rfl | rfl | rfl <;> rfl
      rw [e] at this
      exact this
    · cases he
  | call n =>
    unfold V.exec at he
    dsimp only at he
    split at he
    · next k hroom =>
      simp only [Option.some.injEq] at he
      subst he
      simp only [I.ok, decide_eq_true_eq] at hok
      have e : (u8 (n / 256)).toNat * 256 + (u8 (n % 256)).toNat = n := by
        unfold u8; rw [BitVec.toNat_ofNat, BitVec.toNat_ofNat]; omega
      have hpc := (fetch_ok hi).2.1
      obtain ⟨h1, h2⟩ := hh.pushed (w := BitVec.ofNat 32 (v.pc + 4)) hroom
      refine Go.call hP h hf (by rw [hh.pc, BitVec.toNat_ofNat]; omega) (by omega)
        (by rw [hh.pc, ofNat_add4]; exact stack_writes hb h2 (by have := hh.room; omega) hh.len) ?_
      rw [e]
      exact fun s' hs => hk s' _ ⟨_, _, _, hs, h1.jump rfl⟩
    · cases he
  | ret =>
    unfold V.exec at he
    dsimp only at he
    split at he
    · next w l hst =>
      simp only [Option.some.injEq] at he
      subst he
      obtain ⟨h1, h2, h3⟩ := hh.popped hst
      refine Go.ret hP h hf (by omega) (stack_reads hb h2 (by omega) h3) ?_
      exact fun s' hs => hk s' _ ⟨_, _, _, hs, h1.jump (BitVec.ofNat_toNat 32 w ▸ by simp)⟩
    · cases he
  | _ => cases he

/-- Several instructions on registers and the stack. -/
theorem On.run (hb : Board pf fx) (hP : Closed pf P) (h : On fx ids m v s) (n : Nat) (he : V.run n v = some v')
    (hk : ∀ s' a', On fx ids m v' s' → P s' a') : P s a := by
  induction n generalizing v s a with
  | zero => cases he; exact hk _ _ h
  | succ n ih =>
    unfold V.run at he
    split at he
    · cases he
    · next i hi =>
      split at he
      · cases he
      · next w hw => exact On.exec1 hb hP h hi hw (fun s' a' h' => ih h' he)

/-- Fewer words may be pushed. -/
theorem On.weaken (h : On fx ids m v s) {r : Nat} (hr : r ≤ v.room) : On fx ids m { v with room := r } s := by
  obtain ⟨R, st, cyc, h, hh⟩ := h
  exact ⟨R, st, cyc, h, hh.plain, hh.pc, hh.sp, hh.regs, hh.len, hh.top, by have := hh.room; show v.stack.length + r ≤ 1024; omega⟩

/-- A comparison with a literal and a conditional instruction. -/
theorem On.cmpIf (hb : Board pf fx) (hP : Closed pf P) (h : On fx ids m v s) {r n : Nat} {x : Word} {i : I}
    (hi : v.fetch = some (.cmpL r n)) (hr : tr r = true) (hx : v.get r = x) (hj : v.next.fetch = some i) (heq : i = .ifeq ∨ i = .ifnq)
    (hk : ∀ s' a', On fx ids m (if (x = BitVec.ofNat 32 n ↔ i = .ifeq) then v.goto (· + 8) else v.goto (· + 12)) s' → P s' a') :
    P s a := by
  subst hx
  obtain ⟨R, st, cyc, h, hh⟩ := h
  have hok := (fetch_ok hi).2.2.2
  simp only [I.ok, Bool.and_eq_true, decide_eq_true_eq] at hok
  have ht := tr_facts hr
  refine Go.cmp hP h (fetched hb hh hi) (by rw [ht.2.2.2.2.2.2.2.2]; exact ht.1) (by simp) ?_
  rw [lit2 _ hok.2, ht.2.2.2.2.2.2.2.2, hh.regs r hr]
  intro s1 h1
  have hh1 := (hh.flagged (f := cmpFlags (v.get r) (BitVec.ofNat 32 n))).pass
  have haf : flag (Prog.pass (Prog.flagged R (cmpFlags (v.get r) (BitVec.ofNat 32 n))) 23) 0 = decide (v.get r = BitVec.ofNat 32 n) := by
    show flag (cmpFlags (v.get r) (BitVec.ofNat 32 n)) 0 = _
    exact cmpFlags_zero _ _
  generalize Prog.pass (Prog.flagged R (cmpFlags (v.get r) (BitVec.ofNat 32 n))) = R1 at h1 hh1 haf
  have key : ∀ (wanted : Bool) (op : BitVec 5), ((op = 0x11#5 ∧ wanted = true) ∨ (op = 0x12#5 ∧ wanted = false)) →
      i.word = instrWord op false false false 0 0 0 → ((wanted = true) ↔ i = .ifeq) → P s1 (R 22) := by
    intro wanted op hop hw hwi
    refine Go.ifFlag hP h1 hop (by rw [← hw]; exact fetched hb hh1 hj) (by decide) ?_
    intro s2 h2
    change Shows fx s2 (skipUnless R1 (flag (R1 23) 0 == wanted)) _ _ at h2
    rw [haf] at h2
    have hc : (decide (v.get r = BitVec.ofNat 32 n) == wanted) = decide (v.get r = BitVec.ofNat 32 n ↔ i = .ifeq) := by
      rw [Bool.eq_iff_iff, beq_iff_eq, decide_eq_true_eq, ← hwi]
      cases wanted <;> simp
    rw [hc] at h2
    refine hk s2 _ ?_
    by_cases hx : (v.get r = BitVec.ofNat 32 n ↔ i = .ifeq)
    · rw [if_pos hx]
      rw [decide_eq_true hx] at h2
      exact ⟨_, _, _, h2, hh1.pass⟩
    · rw [if_neg hx]
      rw [decide_eq_false hx] at h2
      exact ⟨_, _, _, h2, hh1.pass.pass⟩
  rcases heq with rfl | rfl
  · exact key true 0x11 (.inl ⟨rfl, rfl⟩) rfl (by simp)
  · exact key false 0x12 (.inr ⟨rfl, rfl⟩) rfl (by simp)

/-- A comparison and IFEQ. -/
theorem On.ifeq (hb : Board pf fx) (hP : Closed pf P) (h : On fx ids m v s) {r n : Nat} {x : Word}
    (hi : v.fetch = some (.cmpL r n)) (hr : tr r = true) (hx : v.get r = x) (hj : v.next.fetch = some .ifeq)
    (h1 : x = BitVec.ofNat 32 n → ∀ s' a', On fx ids m (v.goto (· + 8)) s' → P s' a')
    (h2 : x ≠ BitVec.ofNat 32 n → ∀ s' a', On fx ids m (v.goto (· + 12)) s' → P s' a') : P s a := by
  refine On.cmpIf hb hP h hi hr hx hj (.inl rfl) fun s' a' h' => ?_
  by_cases he : x = BitVec.ofNat 32 n
  · rw [if_pos (by simp [he])] at h'; exact h1 he s' a' h'
  · rw [if_neg (by simp [he])] at h'; exact h2 he s' a' h'

/-- A comparison and IFNQ. -/
theorem On.ifnq (hb : Board pf fx) (hP : Closed pf P) (h : On fx ids m v s) {r n : Nat} {x : Word}
    (hi : v.fetch = some (.cmpL r n)) (hr : tr r = true) (hx : v.get r = x) (hj : v.next.fetch = some .ifnq)
    (h1 : x ≠ BitVec.ofNat 32 n → ∀ s' a', On fx ids m (v.goto (· + 8)) s' → P s' a')
    (h2 : x = BitVec.ofNat 32 n → ∀ s' a', On fx ids m (v.goto (· + 12)) s' → P s' a') : P s a := by
  refine On.cmpIf hb hP h hi hr hx hj (.inr rfl) fun s' a' h' => ?_
  by_cases he : x = BitVec.ofNat 32 n
  · rw [if_neg (by simp [he])] at h'; exact h2 he s' a' h'
  · rw [if_pos (by simp [he])] at h'; exact h1 he s' a' h'

/-- MOD by a literal. -/
theorem On.mod (hb : Board pf fx) (hP : Closed pf P) (h : On fx ids m v s) {d n : Nat} {y : Word}
    (hi : v.fetch = some (.modL d n)) (hd : tr d = true) (hn : n ≠ 0) (hy : v.get d = y) (hx : y.toNat < 2 ^ 31)
    (hk : ∀ s' a', On fx ids m (v.put d (BitVec.ofNat 32 (y.toNat % n))) s' → P s' a') : P s a := by
  subst hy
  obtain ⟨R, st, cyc, h, hh⟩ := h
  have hok := (fetch_ok hi).2.2.2
  simp only [I.ok, Bool.and_eq_true, decide_eq_true_eq] at hok
  have ht := tr_facts hd
  have hun : (u8 n).toNat = n := by unfold u8; rw [BitVec.toNat_ofNat]; omega
  refine Go.modSmall hP h (fetched hb hh hi) (by rw [ht.2.2.2.2.2.2.2.2]; exact ht.2.1) (by rw [ht.2.2.2.2.2.2.2.2]; exact ht.2.2.1)
    (by decide) (by rw [hun]; exact hn) (by rw [ht.2.2.2.2.2.2.2.2, hh.regs d hd]; exact hx) ?_
  rw [hun, ht.2.2.2.2.2.2.2.2, hh.regs d hd]
  exact fun s' f hs => hk s' _ ⟨_, _, _, hs, hh.flagged.put hd⟩

/-- LSA. -/
theorem On.lsa (hb : Board pf fx) (hP : Closed pf P) (h : On fx ids m v s) {d r : Nat} {w x : Word}
    (hi : v.fetch = some (.lsa d r)) (hd : tr d = true) (hr : tr r = true) (hx : v.get r = x) (hal : x.toNat % 4 = 0)
    (hl : ∀ st, Reads pf fx.maps (comps ids st m) x w (comps ids st m'))
    (hk : ∀ s' a', On fx ids m' (v.put d w) s' → P s' a') : P s a := by
  subst hx
  obtain ⟨R, st, cyc, h, hh⟩ := h
  have ht := tr_facts hd
  have e : opVal1 R true (u8 r) + opVal1 R false 0 = v.get r := by
    rw [reg1 hh hr]; exact BitVec.add_zero _
  refine Go.lsa hP h (fetched hb hh hi) (w := w) (by rw [ht.2.2.2.2.2.2.2.2]; exact ht.2.1) (by rw [ht.2.2.2.2.2.2.2.2]; exact ht.2.2.1)
    (by rw [(tr_facts hr).2.2.2.2.2.2.2.2]; exact fun _ => (tr_facts hr).1) (by simp) (by rw [e]; exact hal) (by rw [e]; exact hl st) ?_
  rw [ht.2.2.2.2.2.2.2.2]
  exact fun s' hs => hk s' _ ⟨_, _, _, hs, hh.put hd⟩

theorem leaAddr {R : Nat → Word} (hh : Holds v R st) {r : Nat} (hr : tr r = true) :
    opVal1 R true (u8 r) + opVal1 R true 0 * opVal1 R false 0 = v.get r := by
  rw [reg1 hh hr]
  show v.get r + R 0 * 0#32 = _
  rw [BitVec.mul_zero, BitVec.add_zero]

/-- LEA. -/
theorem On.lea (hb : Board pf fx) (hP : Closed pf P) (h : On fx ids m v s) {r : Nat} {w x : Word}
    (hi : v.fetch = some (.lea r)) (hr : tr r = true) (hx : v.get r = x) (hal : x.toNat % 4 = 0)
    (hl : ∀ st, Reads pf fx.maps (comps ids st m) x w (comps ids st m'))
    (hk : ∀ s' a', On fx ids m' (v.put 21 w) s' → P s' a') : P s a := by
  subst hx
  obtain ⟨R, st, cyc, h, hh⟩ := h
  refine Go.lea hP h (fetched hb hh hi) (w := w) (by rw [(tr_facts hr).2.2.2.2.2.2.2.2]; exact fun _ => (tr_facts hr).1) (by decide) (by decide)
    (by rw [leaAddr hh hr]; exact hal) (by rw [leaAddr hh hr]; exact hl st) ?_
  exact fun s' hs => hk s' _ ⟨_, _, _, hs, hh.put (by decide)⟩

/-- WEA. -/
theorem On.wea (hb : Board pf fx) (hP : Closed pf P) (h : On fx ids m v s) {r : Nat} {x y : Word}
    (hi : v.fetch = some (.wea r)) (hr : tr r = true) (hx : v.get r = x) (hy : v.avr = y) (hal : x.toNat % 4 = 0)
    (hl : ∀ st, Writes pf fx.maps (comps ids st m) x y (comps ids st m'))
    (hk : ∀ s' a', On fx ids m' v.next s' → P s' a') : P s a := by
  subst hx hy
  obtain ⟨R, st, cyc, h, hh⟩ := h
  refine Go.wea hP h (fetched hb hh hi) (by rw [(tr_facts hr).2.2.2.2.2.2.2.2]; exact fun _ => (tr_facts hr).1) (by decide) (by decide)
    (by rw [leaAddr hh hr]; exact hal) (by rw [leaAddr hh hr, hh.regs 21 (by decide)]; exact hl st) ?_
  exact fun s' hs => hk s' _ ⟨_, _, _, hs, hh.pass⟩

/-- WSA of a literal. -/
theorem On.wsa (hb : Board pf fx) (hP : Closed pf P) (h : On fx ids m v s) {r n : Nat} {x : Word}
    (hi : v.fetch = some (.wsa r n)) (hr : tr r = true) (hx : v.get r = x) (hal : x.toNat % 4 = 0)
    (hl : ∀ st, Writes pf fx.maps (comps ids st m) x (BitVec.ofNat 32 n) (comps ids st m'))
    (hk : ∀ s' a', On fx ids m' v.next s' → P s' a') : P s a := by
  subst hx
  obtain ⟨R, st, cyc, h, hh⟩ := h
  have hok := (fetch_ok hi).2.2.2
  simp only [I.ok, Bool.and_eq_true, decide_eq_true_eq] at hok
  have e : opVal1 R true (u8 r) + opVal1 R false 0 = v.get r := by
    rw [reg1 hh hr]; exact BitVec.add_zero _
  refine Go.wsa hP h (fetched hb hh hi) (by rw [(tr_facts hr).2.2.2.2.2.2.2.2]; exact fun _ => (tr_facts hr).1) (by simp) (by simp)
    (by rw [e]; exact hal) (by rw [e, lit1 _ hok.2]; exact hl st) ?_
  exact fun s' hs => hk s' _ ⟨_, _, _, hs, hh.pass⟩

/-- HALT. -/
theorem On.halt (hb : Board pf fx) (hP : Closed pf P) (h : On fx ids m v s) (hi : v.fetch = some .halt)
    (hk : ∀ s' st, s'.halted = true → s'.devs = comps ids st m → P s' (BitVec.ofNat 32 v.pc)) : P s a := by
  obtain ⟨R, st, cyc, h, hh⟩ := h
  refine Go.halt hP h (fetched hb hh hi) ?_
  rw [hh.pc]
  exact fun s' h1 h2 _ _ _ => hk s' st h1 h2

/-- LEA of an address that is not a multiple of 4 raises exception 5. -/
theorem On.leaTrap (hb : Board pf fx) {Q : Machine Dev → Word → Word → Prop} (h : On fx ids m v s) {r : Nat}
    (hi : v.fetch = some (.lea r)) (hr : tr r = true) (hal : (v.get r).toNat % 4 ≠ 0)
    (hq : ∀ s' st, s'.devs = comps ids st m →
      Q s' (BitVec.ofNat 32 v.pc) (BitVec.ofNat 32 (0x01050000 + (v.get r).toNat % 4))) : Finishes pf Q s a := by
  obtain ⟨R, st, cyc, h, hh⟩ := h
  have hf : Fetched pf fx R (comps ids st m) (instrWord 0x15 true true false (u8 r) 0 0) := fetched hb hh hi
  have hst := C29_lea_fault (hf.fetches h) (h.val1 hf.plain (by rw [(tr_facts hr).2.2.2.2.2.2.2.2]; exact fun _ => (tr_facts hr).1))
    (h.val1 hf.plain (by decide)) (h.val1 hf.plain (by decide)) (C25_unaligned (w := 0) (by rw [leaAddr hh hr]; exact hal)).1
  have het : (trap s.regs 0x05 ((opVal1 R true (u8 r) + opVal1 R true 0 * opVal1 R false 0).toNat % 4)).et =
      BitVec.ofNat 32 (0x01050000 + (v.get r).toNat % 4) := by
    rw [leaAddr hh hr]
    unfold trap
    rw [h.sv hh.plain.sv]
    rfl
  refine Finishes.of_steps h hst ?_ ?_
  · rw [het]
    intro h0
    have := congrArg BitVec.toNat h0
    rw [BitVec.toNat_ofNat] at this
    change _ = 0 at this
    omega
  · rw [het, hh.pc]
    exact fun s' h => hq s' st h

/-- WEA of an address that is not a multiple of 4 raises exception 5. -/
theorem On.weaTrap (hb : Board pf fx) {Q : Machine Dev → Word → Word → Prop} (h : On fx ids m v s) {r : Nat}
    (hi : v.fetch = some (.wea r)) (hr : tr r = true) (hal : (v.get r).toNat % 4 ≠ 0)
    (hq : ∀ s' st, s'.devs = comps ids st m →
      Q s' (BitVec.ofNat 32 v.pc) (BitVec.ofNat 32 (0x01050000 + (v.get r).toNat % 4))) : Finishes pf Q s a := by
  obtain ⟨R, st, cyc, h, hh⟩ := h
  have hf : Fetched pf fx R (comps ids st m) (instrWord 0x17 true true false (u8 r) 0 0) := fetched hb hh hi
  have hst := C29_wea_fault (hf.fetches h) (h.val1 hf.plain (by rw [(tr_facts hr).2.2.2.2.2.2.2.2]; exact fun _ => (tr_facts hr).1))
    (h.val1 hf.plain (by decide)) (h.val1 hf.plain (by decide)) (C25_unaligned (by rw [leaAddr hh hr]; exact hal)).2
  have het : (trap s.regs 0x05 ((opVal1 R true (u8 r) + opVal1 R true 0 * opVal1 R false 0).toNat % 4)).et =
      BitVec.ofNat 32 (0x01050000 + (v.get r).toNat % 4) := by
    rw [leaAddr hh hr]
    unfold trap
    rw [h.sv hh.plain.sv]
    rfl
  refine Finishes.of_steps h hst ?_ ?_
  · rw [het]
    intro h0
    have := congrArg BitVec.toNat h0
    rw [BitVec.toNat_ofNat] at this
    change _ = 0 at this
    omega
  · rw [het, hh.pc]
    exact fun s' h => hq s' st h

end Lrvm.Brainfuck

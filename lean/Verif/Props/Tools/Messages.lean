import Verif.Model.Tools.Display
import Verif.Model.Tools.Prepare
import Verif.Props.Tools.RunLines
import Verif.Props.Tools.DecodeErrors

/-!
# A message identifies its cause: C104
-/

namespace Lrvm

open Spec

theorem digitsVal_zeroes (k : Nat) (t : Text) : Lasm.digitsVal 16 0 (List.replicate k '0' ++ t) = Lasm.digitsVal 16 0 t := by
  induction k with
  | zero => rfl
  | succ k ih =>
    rw [List.replicate_succ, List.cons_append]
    have := digitsVal_digit (base := 16) (acc := 0) (d := 0) (cs := List.replicate k '0' ++ t) (by omega) (by omega)
    exact this.trans ih

theorem fmtHex_inj {w n m : Nat} (h : fmtHex w n = fmtHex w m) : n = m := by
  unfold fmtHex padLeft at h
  have h := List.append_cancel_left h
  have h := congrArg (Lasm.digitsVal 16 0) h
  rw [digitsVal_zeroes, digitsVal_zeroes, digitsVal_digits (by omega) (by omega),
    digitsVal_digits (by omega) (by omega)] at h
  exact Option.some.inj h

theorem fmtDec_inj {n m : Nat} (h : fmtDec n = fmtDec m) : n = m := by
  have h := congrArg (Lasm.digitsVal 10 0) h
  unfold fmtDec at h
  rw [digitsVal_digits (by omega) (by omega), digitsVal_digits (by omega) (by omega)] at h
  exact Option.some.inj h

theorem u8_inj {a b : U8} {w : Nat} (h : fmtHex w a.toNat = fmtHex w b.toNat) : a = b := BitVec.eq_of_toNat_eq (fmtHex_inj h)
theorem u16_inj {a b : U16} {w : Nat} (h : fmtHex w a.toNat = fmtHex w b.toNat) : a = b := BitVec.eq_of_toNat_eq (fmtHex_inj h)

/-- The number of the first text that begins `t`. -/
def startsWith : List String → Text → Nat
  | [], _ => 0
  | p :: ps, t => if p.toList.isPrefixOf t then 0 else startsWith ps t + 1

/-- The beginnings of the texts of the component exceptions. -/
def auxStarts : List String :=
  ["Unknown e", "Unsp", "Time", "Unknown o", "Unsu", "Generic physical r", "This memory address is not r",
    "Generic physical w", "This memory address is not w"]

theorem AuxHwException.display_inj {e e' : AuxHwException} (h : e.display = e'.display) : e = e' := by
  have ht := congrArg (startsWith auxStarts) h
  have tag : ∀ e : AuxHwException, startsWith auxStarts e.display = e.ctorIdx := by
    intro e; cases e <;> rfl
  rw [tag, tag] at ht
  cases e <;> cases e' <;> first | rfl | (cases ht; done) | skip
  exact congrArg _ (u8_inj (List.append_cancel_left h))

/-- The beginnings of the texts of the native exceptions (the two register ones begin alike). -/
def nativeStarts : List String :=
  ["Unknown op", "Unknown r", "Register ", "Register ", "Una", "Address cannot be r", "Address cannot be w", "Address cannot be e",
    "Instruction", "Cannot perform a ", "Cannot perform an ", "Invalid IF/", "Invalid IF2", "Unknown c", "Unknown h",
    "Component", "Hardware", "Interruption"]

theorem regName_inj {r r' : Reg} (h : r.name.toList = r'.name.toList) : r = r' := by
  have : ∀ r r' : Reg, r.name.toList = r'.name.toList → r = r' := by
    intro r r'
    cases r <;> cases r' <;> first | (intro _; rfl) | (intro h; exact absurd h (by decide))
  exact this r r' h

theorem fromCode_inj {c c' : U8} {r : Reg} (h : Reg.fromCode c = some r) (h' : Reg.fromCode c' = some r) : c = c' := by
  have : ∀ {c : U8}, Reg.fromCode c = some r → c = r.code := by
    intro c h
    have hk : ∀ k : Fin 256, (Reg.fromCode (BitVec.ofFin k : U8)).all (fun r => r.code == (BitVec.ofFin k : U8)) = true := by
      decide +kernel
    have := hk c.toFin
    rw [show (BitVec.ofFin c.toFin : U8) = c from rfl, h] at this
    exact (by simpa using this : r.code = c).symm
  rw [this h, this h']

/-- **C104**, exceptions: two exceptions that are shown by the same text are the same one, with the same data. -/
theorem C104_exception {e e' : NativeException} {t : Text} (h : e.display = some t) (h' : e'.display = some t) : e = e' := by
  have tag : ∀ (e : NativeException) (t : Text), e.display = some t →
      startsWith nativeStarts t = if e.ctorIdx = 3 then 2 else e.ctorIdx := by
    intro e t h
    cases e <;> first
      | (cases h; rfl)
      | (obtain ⟨r, _, hr⟩ := Option.bind_eq_some_iff.1 h; cases hr; rfl)
  have ht := (tag e t h).symm.trans (tag e' t h')
  have hreg : ∀ {c c' : U8}, NativeException.display (.readProtectedRegister c) = some t →
      NativeException.display (.writeProtectedRegister c') = some t → False := by
    intro c c' h h'
    obtain ⟨r, _, hr⟩ := Option.bind_eq_some_iff.1 h
    obtain ⟨r', _, hr'⟩ := Option.bind_eq_some_iff.1 h'
    have hh := congrArg (fun t => t.reverse.take 14) ((Option.some.inj hr).trans (Option.some.inj hr').symm)
    simp only [List.reverse_append] at hh
    rw [List.take_append_of_le_length (by decide), List.take_append_of_le_length (by decide)] at hh
    exact absurd hh (by decide)
  have hdec : ∀ {a b : U8}, fmtDec a.toNat = fmtDec b.toNat → a = b := fun h => BitVec.eq_of_toNat_eq (fmtDec_inj h)
  have same := h.trans h'.symm
  have hp : ∀ {c c' : U8} {u : Text}, ((Reg.fromCode c).bind fun r => some ("Register ".toList ++ r.name.toList ++ u)) = some t →
      ((Reg.fromCode c').bind fun r => some ("Register ".toList ++ r.name.toList ++ u)) = some t → c = c' := by
    intro c c' u h h'
    obtain ⟨r, hc, hr⟩ := Option.bind_eq_some_iff.1 h
    obtain ⟨r', hc', hr'⟩ := Option.bind_eq_some_iff.1 h'
    have hh := (Option.some.inj hr).trans (Option.some.inj hr').symm
    have := regName_inj (List.append_cancel_left (List.append_cancel_right hh))
    subst this
    exact fromCode_inj hc hc'
  cases e with
  | unknownOpCode c =>
    cases e' with
    | unknownOpCode c' => exact congrArg NativeException.unknownOpCode (u8_inj (List.append_cancel_left (Option.some.inj same)))
    | _ => cases ht
  | unknownRegister c =>
    cases e' with
    | unknownRegister c' => exact congrArg NativeException.unknownRegister (u8_inj (List.append_cancel_left (Option.some.inj same)))
    | _ => cases ht
  | readProtectedRegister c =>
    cases e' with
    | readProtectedRegister c' => exact congrArg NativeException.readProtectedRegister (hp h h')
    | writeProtectedRegister c' => exact absurd (hreg h h') id
    | _ => cases ht
  | writeProtectedRegister c =>
    cases e' with
    | writeProtectedRegister c' => exact congrArg NativeException.writeProtectedRegister (hp h h')
    | readProtectedRegister c' => exact absurd (hreg h' h) id
    | _ => cases ht
  | unalignedMemoryAddress c =>
    cases e' with
    | unalignedMemoryAddress c' => exact congrArg NativeException.unalignedMemoryAddress (hdec (List.append_cancel_left (List.append_cancel_right (Option.some.inj same))))
    | _ => cases ht
  | mmuRefusedRead c =>
    cases e' with
    | mmuRefusedRead c' => exact congrArg NativeException.mmuRefusedRead (u16_inj (List.append_cancel_left (List.append_cancel_right (Option.some.inj same))))
    | _ => cases ht
  | mmuRefusedWrite c =>
    cases e' with
    | mmuRefusedWrite c' => exact congrArg NativeException.mmuRefusedWrite (u16_inj (List.append_cancel_left (List.append_cancel_right (Option.some.inj same))))
    | _ => cases ht
  | mmuRefusedExec c =>
    cases e' with
    | mmuRefusedExec c' => exact congrArg NativeException.mmuRefusedExec (u16_inj (List.append_cancel_left (List.append_cancel_right (Option.some.inj same))))
    | _ => cases ht
  | supervisorReservedInstruction c =>
    cases e' with
    | supervisorReservedInstruction c' => exact congrArg NativeException.supervisorReservedInstruction (u8_inj (List.append_cancel_left (List.append_cancel_right (Option.some.inj same))))
    | _ => cases ht
  | divisionOrModByZero =>
    cases e' with
    | divisionOrModByZero => rfl
    | _ => cases ht
  | overflowingDivOrMod =>
    cases e' with
    | overflowingDivOrMod => rfl
    | _ => cases ht
  | invalidCondFlag c =>
    cases e' with
    | invalidCondFlag c' => exact congrArg NativeException.invalidCondFlag (u8_inj (List.append_cancel_left (Option.some.inj same)))
    | _ => cases ht
  | invalidCondMode c =>
    cases e' with
    | invalidCondMode c' => exact congrArg NativeException.invalidCondMode (u8_inj (List.append_cancel_left (Option.some.inj same)))
    | _ => cases ht
  | unknownComponentId c =>
    cases e' with
    | unknownComponentId c' => exact congrArg NativeException.unknownComponentId (u16_inj (List.append_cancel_left (List.append_cancel_right (Option.some.inj same))))
    | _ => cases ht
  | unknownHardwareInformationCode c =>
    cases e' with
    | unknownHardwareInformationCode c' => exact congrArg NativeException.unknownHardwareInformationCode (u8_inj (List.append_cancel_left (Option.some.inj same)))
    | _ => cases ht
  | componentNotMapped c =>
    cases e' with
    | componentNotMapped c' => exact congrArg NativeException.componentNotMapped (u16_inj (List.append_cancel_left (List.append_cancel_right (Option.some.inj same))))
    | _ => cases ht
  | hardwareException c =>
    cases e' with
    | hardwareException c' => exact congrArg NativeException.hardwareException (AuxHwException.display_inj (List.append_cancel_left (Option.some.inj same)))
    | _ => cases ht
  | interruption c =>
    cases e' with
    | interruption c' => exact congrArg NativeException.interruption (u8_inj (List.append_cancel_left (List.append_cancel_right (Option.some.inj same))))
    | _ => cases ht

/-- **C104**, categories: two categories of components that are shown by the same text are the same one. -/
theorem C104_category {c c' : DeviceCategory} (h : c.text = c'.text) : c = c' := by
  have tag : ∀ c : DeviceCategory, startsWith ["Debug:", "Clock:", "Display:", "Keyboard:", "Memory:", "Storage:", "Plat", "Unc"]
      c.text = c.ctorIdx := by
    intro c; cases c <;> rfl
  have ht := (tag c).symm.trans ((congrArg _ h).trans (tag c'))
  cases c <;> cases c' <;> first
    | (cases ht; done)
    | rfl
    | (exact congrArg _ (BitVec.eq_of_toNat_eq (fmtHex_inj (List.append_cancel_left (List.append_cancel_right h)))))
    | skip
  all_goals
    rename_i a b
    have h := List.append_cancel_left h
    cases a <;> cases b <;> first | rfl | exact absurd h (by decide)

theorem unknownRegister_inj {p p' : Nat} {c c' : U8}
    (h : (InstrDecodingError.unknownRegister p c).display = (InstrDecodingError.unknownRegister p' c').display) :
    InstrDecodingError.unknownRegister p c = .unknownRegister p' c' := by
  have h : "Parameter ".toList ++ fmtDec (p + 1) ++ " uses unknown register: ".toList ++ fmtHex 4 c.toNat =
    "Parameter ".toList ++ fmtDec (p' + 1) ++ " uses unknown register: ".toList ++ fmtHex 4 c'.toNat := h
  rw [List.append_assoc, List.append_assoc, List.append_assoc, List.append_assoc] at h
  have h := List.append_cancel_left h
  have he : " uses unknown register: ".toList = ' ' :: "uses unknown register: ".toList := by decide +kernel
  rw [he, List.cons_append, List.cons_append] at h
  have key : ∀ (n m : Nat) (u u' : Text), fmtDec n ++ ' ' :: u = fmtDec m ++ ' ' :: u' → n = m ∧ u = u' := by
    intro n m u u' h
    have hsp : ∀ n, ∀ c ∈ fmtDec n, (c != ' ') = true := by
      intro n c hc
      obtain ⟨d, hd, rfl⟩ := mem_digits (by omega) hc
      clear hc; revert d
      decide
    have h1 := congrArg (List.takeWhile (· != ' ')) h
    have h2 := congrArg (List.dropWhile (· != ' ')) h
    rw [List.takeWhile_append_of_pos (hsp n), List.takeWhile_append_of_pos (hsp m)] at h1
    rw [List.dropWhile_append_of_pos (hsp n), List.dropWhile_append_of_pos (hsp m)] at h2
    exact ⟨fmtDec_inj (by simpa using h1), by simpa using h2⟩
  obtain ⟨hp, hu⟩ := key (p + 1) (p' + 1) ("uses unknown register: ".toList ++ fmtHex 4 c.toNat)
    ("uses unknown register: ".toList ++ fmtHex 4 c'.toNat) h
  have hu := List.append_cancel_left hu
  rw [Nat.succ.inj hp, u8_inj hu]

/-- **C104**, decoding errors: two errors that are shown by the same text are the same one. -/
theorem C104_decoding {e e' : InstrDecodingError} (h : e.display = e'.display) : e = e' := by
  have tag : ∀ e : InstrDecodingError, startsWith ["The", "Unk", "Par"] e.display = e.ctorIdx := by
    intro e; cases e <;> rfl
  have ht := (tag e).symm.trans ((congrArg _ h).trans (tag e'))
  cases e with
  | sourceNotMultipleOf4Bytes =>
    cases e' with
    | sourceNotMultipleOf4Bytes => rfl
    | _ => cases ht
  | unknownOpCode c =>
    cases e' with
    | unknownOpCode c' => exact congrArg InstrDecodingError.unknownOpCode (u8_inj (List.append_cancel_left h))
    | _ => cases ht
  | unknownRegister p c =>
    cases e' with
    | unknownRegister p' c' => exact unknownRegister_inj h
    | _ => cases ht

/-- **C104**, decoding errors: what the message says of a word that is not an instruction: the five bits of its opcode, or
the position (from 1) and the byte of its first operand that designates no register. -/
theorem C104_decoding_text (b : Bytes4) (e : InstrDecodingError) (h : Instr.decode b = .error e) :
    (Decoding.operands (b.nats 0 / 8) = none ∧ e.display = "Unknown opcode: ".toList ++ RunLines.hex 2 (b.nats 0 / 8)) ∨
    ∃ k, Decoding.FirstBad b.nats k ∧ e.display = "Parameter ".toList ++ Nat.toDigits 10 (k + 1) ++
      " uses unknown register: ".toList ++ RunLines.hex 2 (b.nats (k + 1)) := by
  rcases (C93_decoding_errors b e).1 h with ⟨ho, op, hop, rfl⟩ | ⟨k, code, hk, hc, rfl⟩
  · refine .inl ⟨ho, ?_⟩
    rw [← hop, ← fmtHex_hex]
    rfl
  · refine .inr ⟨k, hk, ?_⟩
    rw [← hc, ← fmtHex_hex, ← digits_ten]
    rfl

/-- Two texts that go on with the same character, which neither contains, are the same. -/
theorem cut_inj {c : Char} : ∀ {x y u v : Text}, c ∉ x → c ∉ y → x ++ c :: u = y ++ c :: v → x = y ∧ u = v
  | [], [], _, _, _, _, h => ⟨rfl, (List.cons.inj h).2⟩
  | [], _ :: _, _, _, _, hy, h => absurd (List.mem_cons.2 (.inl (List.cons.inj h).1)) hy
  | _ :: _, [], _, _, hx, _, h => absurd (List.mem_cons.2 (.inl (List.cons.inj h).1.symm)) hx
  | a :: x, b :: y, _, _, hx, hy, h => by
    obtain ⟨h1, h2⟩ := cut_inj (fun hm => hx (List.mem_cons.2 (.inr hm))) (fun hm => hy (List.mem_cons.2 (.inr hm)))
      (List.cons.inj h).2
    exact ⟨by rw [(List.cons.inj h).1, h1], h2⟩

theorem fmtDec_cut {c : Char} (hc : (Lasm.digitVal c).isNone = true) {n m : Nat} {u v : Text}
    (h : fmtDec n ++ c :: u = fmtDec m ++ c :: v) : n = m ∧ u = v := by
  have hn : ∀ n, c ∉ fmtDec n := by
    intro n hm
    obtain ⟨d, hd, rfl⟩ := mem_digits (base := 10) (by omega) hm
    rw [digitVal_upperDigit (by omega)] at hc
    cases hc
  obtain ⟨h1, h2⟩ := cut_inj (hn n) (hn m) h
  exact ⟨fmtDec_inj h1, h2⟩

theorem Mapping.debugText_inj {m m' : Mapping} {u v : Text} (h : m.debugText ++ u = m'.debugText ++ v) : m = m' := by
  unfold Mapping.debugText at h
  simp only [List.append_assoc] at h
  have h := List.append_cancel_left h
  obtain ⟨h1, h⟩ := fmtDec_cut (c := ',') (by decide) (u := " aux_hw_id: ".toList ++ _) (v := " aux_hw_id: ".toList ++ _) h
  obtain ⟨h2, h⟩ := fmtDec_cut (c := ',') (by decide) (u := " addr: ".toList ++ _) (v := " addr: ".toList ++ _)
    (List.append_cancel_left h)
  obtain ⟨h3, h⟩ := fmtDec_cut (c := ',') (by decide) (u := " size: ".toList ++ _) (v := " size: ".toList ++ _)
    (List.append_cancel_left h)
  obtain ⟨h4, h⟩ := fmtDec_cut (c := ' ') (by decide) (u := "}".toList ++ _) (v := "}".toList ++ _)
    (List.append_cancel_left h)
  obtain ⟨a, b, c, d⟩ := m
  obtain ⟨a', b', c', d'⟩ := m'
  cases h1
  cases BitVec.eq_of_toNat_eq h2
  cases BitVec.eq_of_toNat_eq h3
  cases BitVec.eq_of_toNat_eq h4
  rfl

/-- **C104**, refused mappings: two refusals that are shown by the same text are the same one, with the same data. -/
theorem C104_mapping {e e' : MappingError} (h : e.debugText = e'.debugText) : e = e' := by
  have tag : ∀ e : MappingError, startsWith ["Unk", "UnalignedS", "UnalignedB", "UnalignedE", "NullO", "Al", "NullB", "Ad", "M"]
      e.debugText = e.ctorIdx := by
    intro e; cases e <;> rfl
  have ht := (tag e).symm.trans ((congrArg _ h).trans (tag e'))
  cases e <;> cases e' <;> first | rfl | (cases ht; done) | skip
  · refine congrArg MappingError.addressOverlaps (Mapping.debugText_inj (u := ")".toList) (v := ")".toList) ?_)
    exact List.append_cancel_left ((List.append_assoc ..).symm.trans (h.trans (List.append_assoc ..)))
  · refine congrArg MappingError.mappingTooLarge (BitVec.eq_of_toNat_eq (fmtDec_cut (c := ' ') (by decide) (u := "}".toList)
      (v := "}".toList) ?_).1)
    exact List.append_cancel_left ((List.append_assoc ..).symm.trans (h.trans (List.append_assoc ..)))

/-- Two refusals that differ only by their data. -/
example : MappingError.debugText (.addressOverlaps ⟨1, 0x23, 4, 8⟩) =
      "AddressOverlaps(Mapping { aux_id: 1, aux_hw_id: 35, addr: 4, size: 8 })".toList ∧
    MappingError.debugText (.mappingTooLarge 8) = "MappingTooLarge { aux_size: 8 }".toList ∧
    MappingError.debugText .alreadyMapped = "AlreadyMapped".toList :=
  ⟨by decide +kernel, by decide +kernel, rfl⟩

/-- Messages of an exception, of a category and of a decoding error. -/
example : (NativeException.display (.readProtectedRegister 0x1F)).map String.ofList =
      some "Register smt cannot be read in this mode" ∧
    String.ofList (DeviceCategory.text (.platformSpecific 0xAB)) = "PlatformSpecific:(Code=0x000000AB)" ∧
    (∃ e, Instr.decode ⟨0x10, 0x01, 0x20, 0x00⟩ = .error e ∧
      String.ofList e.display = "Parameter 2 uses unknown register: 0x20") :=
  ⟨by decide +kernel, by decide +kernel, _, rfl, by decide +kernel⟩

end Lrvm

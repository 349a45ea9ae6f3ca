import Verif.Lemmas.Access
import Verif.Model.Board
import Verif.Model.Devices.Memory
import Verif.Model.Devices.Display
import Verif.Model.Devices.Keyboard
import Verif.Demo.Machines

/-!
# Looking at memory disturbs nothing: C119
-/

namespace Lrvm

open Spec

variable {D : Type} [Bus D] {pf : Profile}

namespace Spec

/-- Reading a component of this kind leaves it as it is. -/
def QuietReads (D : Type) [Bus D] : Prop :=
  ∀ (d d' : D) (a w : Word) (ex ex' : U16), Bus.read d a ex = some (d', w, ex') → d' = d

/-- The second list of calls is the first one with direct reads of memory added, anywhere. -/
inductive WithReads : List HostOp → List HostOp → Prop
  | nil : WithReads [] []
  | same {ops ops'} (op : HostOp) : WithReads ops ops' → WithReads (op :: ops) (op :: ops')
  | read {ops ops'} (a : Word) (ex : U16) : WithReads ops ops' → WithReads ops (.memRead a ex :: ops')

end Spec

/-- **C119**, bundled components: the memories, the displays, the keyboards and the debug interface; and boards that mix
them. -/
theorem C119_bundled : QuietReads Ram ∧ QuietReads PersistentMem ∧ QuietReads BootRom ∧ QuietReads BufferedDisplay ∧
    QuietReads CharDisplay ∧ QuietReads NumberDisplay ∧ QuietReads BasicDebug ∧ QuietReads SyncCharKeyboard ∧
    QuietReads SyncLineKeyboard ∧
    ∀ (A B : Type) [Bus A] [Bus B], QuietReads A → QuietReads B → QuietReads (A ⊕ B) := by
  refine ⟨?_, ?_, ?_, ?_, ?_, ?_, ?_, ?_, ?_, ?_⟩
  · intro d d' a w ex ex' h
    obtain ⟨x, _, h⟩ := Option.bind_eq_some_iff.mp
      (show (d.storage[(a / 4).toNat]?).bind (fun x => some (d, x, ex)) = some (d', w, ex') from h)
    cases h; rfl
  · intro d d' a w ex ex' h
    obtain ⟨x, _, h⟩ := Option.bind_eq_some_iff.mp
      (show (d.storage[(a / 4).toNat]?).bind (fun x => some (d, x, ex)) = some (d', w, ex') from h)
    cases h; rfl
  · intro d d' a w ex ex' h
    have h : (if a / 4 < d.len then (d.storage[(a / 4).toNat]?).bind (fun w => some (d, w, ex)) else some (d, 0, ex)) =
      some (d', w, ex') := h
    split at h
    · obtain ⟨x, _, h⟩ := Option.bind_eq_some_iff.mp h
      cases h; rfl
    · cases h; rfl
  · intro d d' a w ex ex' h; cases h; rfl
  · intro d d' a w ex ex' h; cases h; rfl
  · intro d d' a w ex ex' h; cases h; rfl
  · intro d d' a w ex ex' h; cases h; rfl
  · intro d d' a w ex ex' h
    have h : d.read a ex = some (d', w, ex') := h
    unfold SyncCharKeyboard.read at h
    repeat' split at h
    all_goals first | (cases h; done) | (cases h; rfl)
  · intro d d' a w ex ex' h
    have h : (if a / 4 = d.capacity then some (d, 0, ex) else (d.buffer[(a / 4).toNat]?).bind (fun w => some (d, w, ex))) =
      some (d', w, ex') := h
    split at h
    · cases h; rfl
    · obtain ⟨x, _, h⟩ := Option.bind_eq_some_iff.mp h
      cases h; rfl
  · intro A B _ _ hA hB d d' a w ex ex' h
    cases d with
    | inl d =>
      obtain ⟨⟨d1, w1, e1⟩, h1, h2⟩ := Option.map_eq_some_iff.mp
        (show (Bus.read d a ex).map (fun x => ((Sum.inl x.1 : A ⊕ B), x.2)) = some (d', w, ex') from h)
      injection h2 with h2 _
      rw [← h2, hA _ _ _ _ _ _ h1]
    | inr d =>
      obtain ⟨⟨d1, w1, e1⟩, h1, h2⟩ := Option.map_eq_some_iff.mp
        (show (Bus.read d a ex).map (fun x => ((Sum.inr x.1 : A ⊕ B), x.2)) = some (d', w, ex') from h)
      injection h2 with h2 _
      rw [← h2, hB _ _ _ _ _ _ h1]

/-- **C119**, one read: the machine afterwards is the machine before, whatever the mappings and the address. -/
theorem C119_read (hq : QuietReads D) {s s' : Machine D} {a w : Word} {ex ex' : U16}
    (h : memRead pf s a ex = some (w, ex', s')) : s' = s := by
  rw [memRead_eq] at h
  obtain ⟨⟨w1, ex1, ds⟩, h1, h2⟩ := Option.map_eq_some_iff.mp h
  injection h2 with _ h2
  injection h2 with _ h2
  have hds : ds = s.devs := by
    unfold devRead at h1
    simp only [Option.bind_eq_bind, Option.bind_eq_some_iff] at h1
    obtain ⟨_, _, o, ho, h⟩ := h1
    cases o with
    | none => simp at h; exact h.2.2.symm
    | some m =>
      simp only [Option.bind_eq_some_iff] at h
      obtain ⟨off, hoff, r, hr, h⟩ := h
      cases r with
      | none => simp at h
      | some r =>
        simp at h; subst h
        unfold bridgeRead at hr
        simp only [Option.bind_eq_bind, Option.bind_eq_some_iff] at hr
        obtain ⟨⟨⟩, hal, hr⟩ := hr
        split at hr
        · cases hr
        · next d hdd =>
          simp only [Option.bind_eq_some_iff] at hr
          obtain ⟨⟨d', w', x'⟩, hbr, hr⟩ := hr
          injection hr with hr; injection hr with hr; injection hr with h1 hr; injection hr with h2 hr
          subst hr
          obtain rfl := hq _ _ _ _ _ _ hbr
          apply List.ext_getElem?
          intro i
          rw [List.getElem?_set]
          split
          · next h =>
            subst h
            split
            · exact hdd.symm
            · next h => exact absurd (List.getElem?_eq_some_iff.mp hdd).1 h
          · rfl
  dsimp only at h2
  rw [← h2, hds]

/-- **C119**. On a board of such components, in any history of host calls (steps of any program, resets, mapping calls,
direct accesses, register changes), adding direct reads of memory anywhere changes nothing: either one of the added reads
panics, or the run ends like the one without them, in the same state. -/
theorem C119 (hq : QuietReads D) {ops ops' : List HostOp} (h : WithReads ops ops') (s : Machine D) :
    hostRun pf ops' s = none ∨ hostRun pf ops' s = hostRun pf ops s := by
  induction h generalizing s with
  | nil => exact .inr rfl
  | same op _ ih =>
    show (hostStep pf s op).bind _ = none ∨ (hostStep pf s op).bind _ = (hostStep pf s op).bind _
    cases hostStep pf s op with
    | none => exact .inl rfl
    | some s1 => exact ih s1
  | read a ex _ ih =>
    show ((memRead pf s a ex).map (·.2.2)).bind _ = none ∨ ((memRead pf s a ex).map (·.2.2)).bind _ = _
    cases hr : memRead pf s a ex with
    | none => exact .inl rfl
    | some p =>
      obtain ⟨w, ex', s1⟩ := p
      obtain rfl := C119_read hq hr
      exact ih s1

/-- A board with a ROM and a RAM. Its program writes 7 in the RAM; the host looks at the ROM, at the RAM and at an address
where there is nothing, between the steps. The hypotheses hold, no read panics, and both runs end in the same state. -/
example : QuietReads Demo.Dev ∧
    WithReads [.mapContiguous 0 [0, 1], .reset, .next, .next]
      [.mapContiguous 0 [0, 1], .memRead 4 0, .reset, .next, .memRead 0x40 0, .memRead 0x1000 0, .next, .memRead 0x40 0] ∧
    ∃ s t : Machine Demo.Dev, newBoard .debug (Demo.devices [0x08000007, 0xB1400000]) = some s ∧
      hostRun .debug [.mapContiguous 0 [0, 1], .memRead 4 0, .reset, .next, .memRead 0x40 0, .memRead 0x1000 0, .next,
        .memRead 0x40 0] s = some t ∧
      (memRead .debug t 0x40 0).map (·.1) = some 7 :=
  ⟨C119_bundled.2.2.2.2.2.2.2.2.2 _ _ C119_bundled.2.2.1 C119_bundled.1,
   .same _ (.read _ _ (.same _ (.same _ (.read _ _ (.read _ _ (.same _ (.read _ _ .nil))))))),
   _, _, rfl, rfl, rfl⟩

end Lrvm

import Verif.Lemmas.Labels
import Verif.Lemmas.Component
import Verif.Props.Devices.Interchange
import Verif.Model.Devices.Keyboard
import Verif.Model.Devices.FileBacked
import Verif.Model.Devices.Clock
import Verif.Model.Devices.Display
import Verif.Props.Devices.Reboot
import Verif.Demo.Machines

/-!
# Names and identifiers are labels: C123
-/

namespace Lrvm

open Spec

variable {D E : Type} [Bus D] [Bus E] {pf : Profile}

namespace Spec

/-- The two lists have, one by one, components with the same size and the same answers to every history of requests within
that size. Their names, identifiers, categories, models and data are free. -/
def SameButNames [Bus D] [Bus E] (pf : Profile) (ds : List D) (es : List E) : Prop :=
  ds.length = es.length ∧ ∀ (i : Nat) (d : D) (e : E), ds[i]? = some d → es[i]? = some e →
    (Bus.metadata pf d).map (·[2]) = (Bus.metadata pf e).map (·[2]) ∧
    ∀ md, Bus.metadata pf d = some md → SameAnswers d e md[2].toNat

/-- `map`, or `map_abs` when an end address is given. -/
def mapCall (pf : Profile) (s : Machine D) (a : Word) (id : Nat) : Option Word → Res (Except MappingError MappingRange × Machine D)
  | none => map pf s a id
  | some e => mapAbs pf s a e id

end Spec

theorem resAlike_of_map {x : Res Metadata} {y : Res Metadata} (h : x.map (·[2]) = y.map (·[2])) :
    resAlike (fun m m' : Metadata => m[2] = m'[2]) x y := by
  cases x <;> cases y
  · trivial
  · cases h
  · cases h
  · exact Option.some.inj h

theorem labels_core {ds : List D} {es : List E} (h : SameButNames pf ds es) (ops : List HostOp)
    (hl : ∀ s, newBoard pf ds = some s → NeverAsks pf ops s) :
    (newBoard pf ds >>= hostRun pf ops) = none ∧ (newBoard pf es >>= hostRun pf ops) = none ∨
    ∃ (R : Nat → D → E → Prop) (cache : List AuxCache) (s : Machine D) (t : Machine E), DevAlike R cache ∧
      (newBoard pf ds >>= hostRun pf ops) = some s ∧ (newBoard pf es >>= hostRun pf ops) = some t ∧ Akin R cache s t := by
  let sz : Nat → Nat := fun i => match ds[i]? with
    | some d => match Bus.metadata pf d with
      | some md => md[2].toNat
      | none => 0
    | none => 0
  have hsz : ∀ (i : Nat) (d : D) (md : Metadata), ds[i]? = some d → Bus.metadata pf d = some md → sz i = md[2].toNat := by
    intro i d md h1 h2
    simp only [sz, h1, h2]
  have hnew := newBoard_akin (pf := pf) (R := Together ds es sz) h.1 fun i d e hd he =>
    ⟨resAlike_of_map (h.2 i d e hd he).1, d, e, [], [], [], hd, he, by simp, rfl, rfl⟩
  cases h1 : newBoard pf ds with
  | none =>
    cases h2 : newBoard pf es with
    | none => exact .inl ⟨rfl, rfl⟩
    | some t => rw [h1, h2] at hnew; exact hnew.elim
  | some s =>
    cases h2 : newBoard pf es with
    | none => rw [h1, h2] at hnew; exact hnew.elim
    | some t =>
      rw [h1, h2] at hnew
      obtain ⟨hc, _⟩ := newBoard_inv h1
      obtain ⟨hcl, hg⟩ := createCaches_get hc
      have hi : DevAlike (Together ds es sz) s.memCache := by
        refine together_devAlike ?_ ?_
        · intro i d e hd he
          obtain ⟨c, md, _, hmd, _⟩ := hg i d hd
          rw [hsz i d md hd hmd]
          exact (h.2 i d e hd he).2 md hmd
        · rintro i a ⟨h4, c, hci, hlt⟩
          have hi : i < ds.length := hcl ▸ (List.getElem?_eq_some_iff.mp hci).1
          obtain ⟨c', md, hc', hmd, _, hs, _⟩ := hg i ds[i] (List.getElem?_eq_getElem hi)
          rw [hci] at hc'; cases hc'
          rw [hsz i _ md (List.getElem?_eq_getElem hi) hmd, ← hs]
          exact ⟨h4, hlt⟩
      have hrun := hostRun_akin (pf := pf) hi ops hnew (hl s h1)
      show hostRun pf ops s = none ∧ hostRun pf ops t = none ∨ _
      cases h3 : hostRun pf ops s with
      | none =>
        cases h4 : hostRun pf ops t with
        | none => exact .inl ⟨rfl, rfl⟩
        | some t' => rw [h3, h4] at hrun; exact hrun.elim
      | some s' =>
        cases h4 : hostRun pf ops t with
        | none => rw [h3, h4] at hrun; exact hrun.elim
        | some t' =>
          rw [h3, h4] at hrun
          exact .inr ⟨_, _, s', t', hi, h3, h4, hrun⟩

/-- **C123**. Take two boards whose components have, one by one, the same size and the same answers, but any names,
identifiers, categories, models and data: in one of them all the identifiers may be the same. As long as no program asks,
with HWD, who a component is, no history of host calls tells the boards apart: it panics on both or on none, and leaves
the same registers, cycle count, halting state and mapped ranges, and the same answer to every direct read. -/
theorem C123 {ds : List D} {es : List E} (h : SameButNames pf ds es) (ops : List HostOp)
    (hl : ∀ s, newBoard pf ds = some s → NeverAsks pf ops s) :
    SameOutcomeButLabels pf (newBoard pf ds >>= hostRun pf ops) (newBoard pf es >>= hostRun pf ops) := by
  rcases labels_core h ops hl with ⟨h1, h2⟩ | ⟨R, cache, s, t, hi, h1, h2, ha⟩
  · rw [h1, h2]; trivial
  · rw [h1, h2]
    refine ⟨⟨ha.regs, ha.maps, ha.cycles, ha.halted, ha.devs.1⟩, fun a ex => ?_⟩
    have := memRead_akin (pf := pf) hi ha a ex
    cases h1 : memRead pf s a ex <;> cases h2 : memRead pf t a ex <;> rw [h1, h2] at this
    · rfl
    · exact this.elim
    · exact this.elim
    · simp only [Option.map_some]; rw [this.1, this.2.1]

/-- **C123**, the results of mapping calls, after such a history: both panic, or both give the same range or the same
error. In particular a duplicate identifier never makes a mapping fail. -/
theorem C123_map {ds : List D} {es : List E} (h : SameButNames pf ds es) (ops : List HostOp)
    (hl : ∀ s, newBoard pf ds = some s → NeverAsks pf ops s) {s : Machine D} {t : Machine E}
    (hs : (newBoard pf ds >>= hostRun pf ops) = some s) (ht : (newBoard pf es >>= hostRun pf ops) = some t)
    (a : Word) (e? : Option Word) (id : Nat) :
    (mapCall pf s a id e? = none ∧ mapCall pf t a id e? = none) ∨
    ∃ r s' r' t', mapCall pf s a id e? = some (r, s') ∧ mapCall pf t a id e? = some (r', t') ∧ SameMapping r r' ∧
      SameButLabels s' t' := by
  rcases labels_core h ops hl with ⟨h1, _⟩ | ⟨R, cache, s1, t1, hi, h1, h2, ha⟩
  · rw [h1] at hs; cases hs
  rw [hs] at h1; cases h1
  rw [ht] at h2; cases h2
  have key := internalMap_akin (pf := pf) ha a e? id
  have e1 : mapCall pf s a id e? = internalMap pf s a e? id := by cases e? <;> rfl
  have e2 : mapCall pf t a id e? = internalMap pf t a e? id := by cases e? <;> rfl
  rw [e1, e2]
  cases h1 : internalMap pf s a e? id with
  | none => cases h2 : internalMap pf t a e? id with
    | none => exact .inl ⟨rfl, rfl⟩
    | some y => rw [h1, h2] at key; exact key.elim
  | some x => cases h2 : internalMap pf t a e? id with
    | none => rw [h1, h2] at key; exact key.elim
    | some y =>
      rw [h1, h2] at key
      exact .inr ⟨x.1, x.2, y.1, y.2, rfl, rfl, key.1,
        ⟨key.2.regs, key.2.maps, key.2.cycles, key.2.halted, key.2.devs.1⟩⟩

/-! ### The bundled components with other identifiers -/

theorem serve_map_sameAnswers {f : D → D} (hf : ∀ d q, serve (f d) q = (serve d q).map fun p => (f p.1, p.2)) (d : D)
    (size : Nat) : SameAnswers d (f d) size := by
  intro rs hrs
  clear hrs
  suffices h : ∀ d, serveAll (f d) rs = (serveAll d rs).map fun p => (f p.1, p.2) by
    rw [h d, Option.map_map]; rfl
  induction rs with
  | nil => intro d; rfl
  | cons r rs ih =>
    intro d
    simp only [serveAll, hf]
    cases serve d r with
    | none => rfl
    | some p =>
      simp only [Option.map_some, Option.bind_eq_bind, Option.bind_some, ih p.1]
      cases serveAll p.1 rs <;> rfl

namespace Spec

/-- `f` changes neither the size nor the answers of components. -/
def OnlyLabels [Bus D] (pf : Profile) (f : D → D) : Prop :=
  ∀ d, (Bus.metadata pf (f d)).map (·[2]) = (Bus.metadata pf d).map (·[2]) ∧ ∀ size, SameAnswers d (f d) size

end Spec

theorem metadata_size (id id' : U64) (sz : Word) (c : DeviceCategory) (m : Option Word) (x : Option U64) :
    ((DeviceMetadata.new id sz c m x) >>= DeviceMetadata.encode).map (·[2]) =
      ((DeviceMetadata.new id' sz c m x) >>= DeviceMetadata.encode).map (·[2]) := by
  unfold DeviceMetadata.new
  cases assert (sz % 4 == 0) with
  | none => rfl
  | some u => simp only [Option.bind_eq_bind, Option.bind_some, DeviceMetadata.encode_eq]; rfl

theorem metadata_size' (a : Res Word) (id id' : U64) (c : DeviceCategory) (m : Option Word) (x : Option U64) :
    (a >>= fun sz => (DeviceMetadata.new id sz c m x) >>= DeviceMetadata.encode).map (·[2]) =
      (a >>= fun sz => (DeviceMetadata.new id' sz c m x) >>= DeviceMetadata.encode).map (·[2]) := by
  cases a with
  | none => rfl
  | some sz => exact metadata_size id id' sz c m x

theorem onlyLabels_of {f : D → D}
    (hm : ∀ d, (Bus.metadata pf (f d)).map (·[2]) = (Bus.metadata pf d).map (·[2]))
    (hr : ∀ d a ex, Bus.read (f d) a ex = (Bus.read d a ex).map fun p => (f p.1, p.2))
    (hw : ∀ d a w ex, Bus.write (f d) a w ex = (Bus.write d a w ex).map fun p => (f p.1, p.2))
    (hz : ∀ d, Bus.reset (f d) = (Bus.reset d).map f) : OnlyLabels pf f := by
  refine fun d => ⟨hm d, fun size => serve_map_sameAnswers (f := f) (fun d q => ?_) d size⟩
  cases q with
  | read a ex => simp only [serve, hr, Option.map_map]; rfl
  | write a w ex => simp only [serve, hw, Option.map_map]; rfl
  | reset => simp only [serve, hz, Option.map_map]; rfl

theorem metadata_size'' (a : Res Word) (b : Word → Res Word) (id id' : U64) (c : DeviceCategory) (m : Option Word)
    (x : Option U64) :
    (a >>= fun t => b t >>= fun sz => (DeviceMetadata.new id sz c m x) >>= DeviceMetadata.encode).map (·[2]) =
      (a >>= fun t => b t >>= fun sz => (DeviceMetadata.new id' sz c m x) >>= DeviceMetadata.encode).map (·[2]) := by
  cases a with
  | none => rfl
  | some t => exact metadata_size' (b t) id id' c m x

/-- **C123**, the bundled components: another identifier changes neither their size nor their answers. -/
theorem C123_ids (k : U64) :
    OnlyLabels pf (fun d : Ram => { d with hwId := k }) ∧ OnlyLabels pf (fun d : PersistentMem => { d with hwId := k }) ∧
    OnlyLabels pf (fun d : BootRom => { d with hwId := k }) ∧ OnlyLabels pf (fun d : FileBackedMem => { d with hwId := k }) ∧
    OnlyLabels pf (fun d : SyncCharKeyboard => { d with hwId := k }) ∧
    OnlyLabels pf (fun d : SyncLineKeyboard => { d with hwId := k }) ∧
    OnlyLabels pf (fun d : BufferedDisplay => { d with hwId := k }) ∧
    OnlyLabels pf (fun d : CharDisplay => { d with hwId := k }) ∧ OnlyLabels pf (fun d : NumberDisplay => { d with hwId := k }) ∧
    OnlyLabels pf (fun d : BasicDebug => { d with hwId := k }) ∧ OnlyLabels pf (fun d : RealtimeClock => { d with hwId := k }) := by
  refine ⟨?_, ?_, ?_, ?_, ?_, ?_, ?_, ?_, ?_, ?_, ?_⟩
  · refine onlyLabels_of (fun d => metadata_size' _ _ _ _ _ _) (fun d a ex => ?_) (fun d a w ex => ?_) fun d => rfl
    · simp only [Bus.read]; cases vecRead d.storage a <;> rfl
    · simp only [Bus.write]; cases vecWrite d.storage a w <;> rfl
  · refine onlyLabels_of (fun d => metadata_size' _ _ _ _ _ _) (fun d a ex => ?_) (fun d a w ex => ?_) fun d => rfl
    · simp only [Bus.read]; cases vecRead d.storage a <;> rfl
    · simp only [Bus.write]; cases vecWrite d.storage a w <;> rfl
  · refine onlyLabels_of (fun d => metadata_size' _ _ _ _ _ _) (fun d a ex => ?_) (fun d a w ex => rfl) fun d => rfl
    simp only [Bus.read]; split
    · cases d.storage[(a / 4).toNat]? <;> rfl
    · rfl
  · refine onlyLabels_of (fun d => metadata_size' _ _ _ _ _ _) (fun d a ex => ?_) (fun d a w ex => ?_) fun d => rfl
    · simp only [Bus.read, FileBackedMem.read]; repeat' split
      all_goals rfl
    · simp only [Bus.write, FileBackedMem.write]; repeat' split
      all_goals rfl
  · refine onlyLabels_of (fun d => metadata_size _ _ _ _ _ _) (fun d a ex => ?_) (fun d a w ex => ?_) fun d => rfl
    · simp only [Bus.read, SyncCharKeyboard.read]; repeat' split
      all_goals rfl
    · simp only [Bus.write, SyncCharKeyboard.write]; repeat' split
      all_goals rfl
  · refine onlyLabels_of (fun d => metadata_size'' _ _ _ _ _ _ _) (fun d a ex => ?_) (fun d a w ex => ?_) fun d => rfl
    · simp only [Bus.read]; split
      · rfl
      · cases d.buffer[(a / 4).toNat]? <;> rfl
    · simp only [Bus.write, SyncLineKeyboard.write]; repeat' split
      all_goals rfl
  · refine onlyLabels_of (fun d => metadata_size'' _ _ _ _ _ _ _) (fun d a ex => rfl) (fun d a w ex => ?_) fun d => rfl
    simp only [Bus.write, BufferedDisplay.write]; repeat' split
    all_goals rfl
  · exact onlyLabels_of (fun d => metadata_size _ _ _ _ _ _) (fun d a ex => rfl) (fun d a w ex => rfl) fun d => rfl
  · refine onlyLabels_of (fun d => metadata_size _ _ _ _ _ _) (fun d a ex => rfl) (fun d a w ex => ?_) fun d => rfl
    simp only [Bus.write, NumberDisplay.write]; cases NumberFormat.of (a % 16).toNat <;> rfl
  · refine onlyLabels_of (fun d => metadata_size _ _ _ _ _ _) (fun d a ex => rfl) (fun d a w ex => ?_) fun d => rfl
    simp only [Bus.write]; cases DebugInfo.of (a / 4).toNat w <;> rfl
  · refine onlyLabels_of (fun d => metadata_size _ _ _ _ _ _) (fun d a ex => ?_) (fun d a w ex => rfl) fun d => rfl
    simp only [Bus.read, RealtimeClock.read]; split
    · cases d.system d.reads with
      | none => rfl
      | some t => dsimp only; cases clockWord .debug t a <;> rfl
    · cases clockWord .debug (elapsed d.resetAt (d.instant d.reads)) a <;> rfl

/-- A board is told apart from none of its relabellings. -/
theorem sameButNames_map {f : D → D} (hf : OnlyLabels pf f) (ds : List D) : SameButNames pf ds (ds.map f) := by
  refine ⟨by simp, fun i d e hd he => ?_⟩
  rw [List.getElem?_map, hd] at he
  cases he
  exact ⟨(hf d).1.symm, fun md _ => (hf d).2 _⟩

theorem onlyLabels_sum {f : D → D} {g : E → E} (hf : OnlyLabels pf f) (hg : OnlyLabels pf g) :
    OnlyLabels pf (Sum.map f g : D ⊕ E → D ⊕ E) := by
  rintro (d | e)
  · refine ⟨(hf d).1, fun size rs hrs => ?_⟩
    have := (hf d).2 size rs hrs
    simp only [Sum.map_inl, serveAll_inl, Option.map_map]
    exact this
  · refine ⟨(hg e).1, fun size rs hrs => ?_⟩
    have := (hg e).2 size rs hrs
    simp only [Sum.map_inr, serveAll_inr, Option.map_map]
    exact this

/-- The components of the example board, all with the identifier 0x11. -/
def Demo.duplicates (prog : List Word) : List Demo.Dev :=
  (Demo.devices prog).map (Sum.map (fun d => { d with hwId := 0x11 }) fun d => { d with hwId := 0x11 })

theorem Demo.duplicates_same (prog : List Word) : SameButNames .debug (Demo.devices prog) (Demo.duplicates prog) :=
  sameButNames_map (onlyLabels_sum (C123_ids 0x11).2.2.1 (C123_ids 0x11).1) _

/-- Mapping both components of the board, starting it and running a store and a load. -/
def Demo.calls : List HostOp := [.map 0 0, .map 0x40 1, .reset, .next, .next]

/-- A test that implies `NeverAsks`: no instruction run is an HWD. -/
def Demo.noHwd [Bus D] (pf : Profile) : List HostOp → Machine D → Bool
  | [], _ => true
  | op :: ops, s =>
    (match op with
      | .next => match cpuExec pf s.regs.pc { s with cycles := s.cycles + 1 } with
        | .ok w _ => opcode w != 0x1C
        | _ => true
      | _ => true) &&
    (match hostStep pf s op with
      | some s' => Demo.noHwd pf ops s'
      | none => true)

theorem Demo.noHwd_neverAsks (ops : List HostOp) : ∀ s : Machine D, Demo.noHwd pf ops s = true → NeverAsks pf ops s := by
  induction ops with
  | nil => exact fun _ _ => trivial
  | cons op ops ih =>
    intro s h
    obtain ⟨h1, h2⟩ := Bool.and_eq_true_iff.mp (show (_ && _) = true from h)
    refine ⟨?_, fun s' hs' => ?_⟩
    · rintro rfl w devs hf ⟨r0, r1, r2, p0, p1, p2, v, rfl, -⟩
      simp only [hf.2, opcode_instrWord] at h1
      cases h1
    · rw [hs'] at h2
      exact ih s' h2

/-- The boards with different and with duplicate identifiers: the program `sta 0x40, 0, 9; lda a4, 0x40, 0` asks no
component who it is, and both boards end with 9 in a4. -/
example : ∃ s t t',
    newBoard .debug (Demo.devices [instrWord 0x16 false false false 0x40 0 9, instrWord 0x14 false false false 4 0x40 0]) = some s ∧
    NeverAsks .debug Demo.calls s ∧ hostRun .debug Demo.calls s = some t ∧ reg t.regs 4 = 9 ∧
    (newBoard .debug (Demo.duplicates [instrWord 0x16 false false false 0x40 0 9, instrWord 0x14 false false false 4 0x40 0]) >>=
      hostRun .debug Demo.calls) = some t' ∧ reg t'.regs 4 = 9 ∧ t'.mappings ≠ t.mappings ∧ SameButLabels t t' := by
  refine ⟨_, _, _, rfl, ?_, rfl, by decide, rfl, by decide, by decide, ⟨by decide +kernel, by decide +kernel, by decide +kernel, by decide +kernel, by decide +kernel⟩⟩
  exact Demo.noHwd_neverAsks _ _ (by decide +kernel)

/-- **C123**: the restriction is needed. A program that asks for an identifier tells the boards apart. -/
theorem C123_needs_not_asking : ∃ (ds es : List Demo.Dev) (ops : List HostOp) (t t' : Machine Demo.Dev),
    SameButNames .debug ds es ∧ (newBoard .debug ds >>= hostRun .debug ops) = some t ∧
    (newBoard .debug es >>= hostRun .debug ops) = some t' ∧ t.regs ≠ t'.regs :=
  ⟨Demo.devices [instrWord 0x1C false false false 3 1 2], Demo.duplicates [instrWord 0x1C false false false 3 1 2],
    [.map 0 0, .reset, .next], _, _, Demo.duplicates_same _, rfl, rfl, by decide⟩

end Lrvm

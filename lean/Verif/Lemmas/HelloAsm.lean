import Verif.Lemmas.LasmAppend
import Verif.Model.Examples.HelloWorld

/-!
# Assembling the example `hello_world`
-/

namespace Lrvm.HelloWorld

open Spec Lasm Lrvm

/-! ## Assembling -/

/-- The lines before the message. -/
def codeLines : List Text :=
  ["", "main:", "    cpy ac0, message", "    cpy ac1, 0x2000", "    cpy ac2, 0x2100 - 0x04", "", ".copy_byte:",
    "    lsa a0, ac0, 0", "    cmp a0, 0", "", "    ifeq", "    jp .display", "", "    wsa ac1, 0, a0", "",
    "    add ac0, 4", "    add ac1, 4", "", "    jp .copy_byte", "", ".display:", "    wsa ac2, 0, 0xAA", "    halt",
    "", "message:"].map String.toList

def lastLines : List Text := ["    #d32 0", ""].map String.toList

def labels : List (Text × Nat) :=
  [("main".toList, 0), ("main.copy_byte".toList, 12), ("main.display".toList, 44), ("message".toList, 52)]

def code : List Word :=
  [0x0c0a0034, 0x0c0b2000, 0x0c0c20fc, 0xa6000a00, 0x6c000000, 0x88000000, 0x0c16002c, 0xb50b0000, 0x1c0a0004,
    0x1c0b0004, 0x0c16000c, 0xb40c00aa, 0xf0000000]

theorem source_lines (t : Text) : source t = joinText ['\n']
    (codeLines ++ ((List.replicate 4 ' ' ++ textLine t) :: lastLines)) := by
  rw [joinText_append (by decide) (by simp)]
  show _ = _ ++ _ ++ (joinText ['\n'] ((List.replicate 4 ' ' ++ textLine t) :: lastLines))
  rw [joinText_cons (by decide)]
  unfold source textLine
  have h1 : "
main:
    cpy ac0, message
    cpy ac1, 0x2000
    cpy ac2, 0x2100 - 0x04

.copy_byte:
    lsa a0, ac0, 0
    cmp a0, 0

    ifeq
    jp .display

    wsa ac1, 0, a0

    add ac0, 4
    add ac1, 4

    jp .copy_byte

.display:
    wsa ac2, 0, 0xAA
    halt

message:
    #d \"".toList = joinText ['\n'] codeLines ++ ['\n'] ++ (List.replicate 4 ' ' ++ ['#', 'd', ' ', '"']) := by decide +kernel
  have h2 : "\"
    #d32 0
".toList = '"' :: '\n' :: joinText ['\n'] lastLines := by decide +kernel
  rw [h1, h2]
  simp only [List.append_assoc, List.cons_append, List.nil_append, List.replicate]

theorem emit_code : emit labels 0 [] codeLines = some (wordsToBytes code) := by decide +kernel

theorem assemble_source {t u : Text} (h : Quoted t u) :
    assembleWords (source t) = some (code ++ bytesToWords (utf8 u ++ [0, 0, 0, 0])) := by
  have hline : lineCode (List.replicate 4 ' ' ++ textLine t) = textLine t := by
    rw [lineCode_spaces, textLine_code h]
  have hlab : labelOf (textLine t) = none := by
    unfold labelOf
    rw [if_neg]
    rintro ⟨h1, -⟩
    unfold textLine at h1
    rw [← List.cons_append, ← List.cons_append, ← List.cons_append, ← List.cons_append, List.getLast?_concat] at h1
    revert h1; decide
  have hnl : ∀ x ∈ codeLines ++ ((List.replicate 4 ' ' ++ textLine t) :: lastLines), '\n' ∉ x := by
    have e1 : ∀ x ∈ codeLines, '\n' ∉ x := by decide +kernel
    have e2 : ∀ x ∈ lastLines, '\n' ∉ x := by decide +kernel
    intro x hx
    rcases List.mem_append.1 hx with hx | hx
    · exact e1 x hx
    · rcases List.mem_cons.1 hx with rfl | hx
      · unfold textLine
        intro hc
        rcases List.mem_append.1 hc with hc | hc
        · exact absurd (List.eq_of_mem_replicate hc) (by decide)
        · simp only [List.mem_cons, List.mem_append, List.not_mem_nil, or_false] at hc
          rcases hc with hc | hc | hc | hc | hc | hc
          all_goals first | (exact absurd hc (by decide)) | exact (quoted_chars h _ hc).2 rfl
      · exact e2 x hx
  have hlay : layout 0 [] (codeLines ++ ((List.replicate 4 ' ' ++ textLine t) :: lastLines)) = labels := by
    rw [layout_append]
    have e1 : layout 0 [] codeLines = labels := by decide +kernel
    have e2 : ∀ p sc, layout p sc lastLines = [] := by
      intro p sc
      have a1 : labelOf (lineCode "    #d32 0".toList) = none := by decide +kernel
      have a2 : labelOf (lineCode "".toList) = none := by decide +kernel
      show layout p sc ["    #d32 0".toList, "".toList] = []
      rw [layout, a1]
      simp only
      rw [layout, a2]
      rfl
    rw [e1, layout, hline, hlab]
    simp only
    rw [e2, List.append_nil]
  have hemit : emit labels 0 [] (codeLines ++ ((List.replicate 4 ' ' ++ textLine t) :: lastLines)) =
      some (wordsToBytes code ++ (utf8 u ++ [0, 0, 0, 0])) := by
    rw [emit_append emit_code, emit, hline, hlab]
    simp only
    rw [assembleLine_congr (lineCode_spaces 4 (textLine t)), assembleLine_text h]
    have e2 : ∀ p sc, emit labels p sc lastLines = some [0, 0, 0, 0] := by
      intro p sc
      have a1 : labelOf (lineCode "    #d32 0".toList) = none := by decide +kernel
      have a2 : labelOf (lineCode "".toList) = none := by decide +kernel
      have a3 : ∀ env, assembleLine env "    #d32 0".toList = some [0, 0, 0, 0] := by
        intro env
        have : lineCode "    #d32 0".toList = "#d32 0".toList := by decide +kernel
        have hv : exprVal env "0".toList = some 0 := rfl
        have hd : d32 0 = some [0, 0, 0, 0] := by decide +kernel
        have hs : (splitOperands false (trim (List.dropWhile (fun x => x != ' ') "#d32 0".toList))).map trim = ["0".toList] := by
          decide +kernel
        unfold assembleLine
        rw [this, if_neg (by decide +kernel), if_neg (by decide +kernel), if_pos (by decide +kernel), if_neg (by decide +kernel),
          hs]
        simp only [hv, Option.bind_some, hd]
      show emit labels p sc ["    #d32 0".toList, "".toList] = _
      rw [emit, a1]
      simp only
      rw [a3]
      simp only [Option.bind_eq_bind, Option.bind_some]
      rw [emit, a2]
      rfl
    simp only [Option.bind_eq_bind, Option.bind_some, e2, Option.map_some]
  unfold assembleWords assemble
  rw [source_lines, splitAt_joinText (by simp) hnl]
  simp only
  rw [hlay, if_pos (by decide +kernel), hemit]
  simp only [Option.bind_eq_bind, Option.bind_some]
  rw [bytesToWords_append]

end Lrvm.HelloWorld

import Verif.Lemmas.EmitReads
import Verif.Lemmas.Escape
import Verif.Spec.Tree
/-! The whole document, and what rows and cells are. -/
namespace Verif
open Verif.Model Verif.Spec

theorem xrun_content (s : Str) (t : Str) (top : Frame) (below : List Frame) :
    xrun ⟨.text t, top, below⟩ (s.flatMap esc1) = some ⟨.text (t ++ s), top, below⟩ := by
  induction s generalizing t with
  | nil => simp [xrun]
  | cons c cs ih =>
    rw [List.flatMap_cons]
    refine xrun_app (t := ⟨.text (t ++ [c]), top, below⟩) ?_ (by rw [ih]; simp)
    by_cases h1 : c = '<'
    · subst h1; rfl
    by_cases h2 : c = '>'
    · subst h2; rfl
    by_cases h3 : c = '&'
    · subst h3; rfl
    have : isContentSpecial c = false := by simp [isContentSpecial, h1, h2, h3]
    simp [esc1, this, xrun, xstep, h1, h2, h3]

theorem TokenReads.content (s : Str) : TokenReads (escapeHtmlContent [] s) (txt s) := fun top below ht =>
  ⟨s, top, by rw [escapeHtmlContent_eq]; simpa using xrun_content s [] top below, flush_txt ht s⟩

theorem nodeVecToNode_ok {ast : List Node} (h : NodesOk ast) : NodeOk (nodeVecToNode ast false) := by
  unfold nodeVecToNode
  split
  · simpa using h.1
  · exact h

theorem emitDocument_reads {flags : EmitterConfig} (hc : CfgOk flags.emitter) {ast : List Node} (h : NodesOk ast)
    (latex : Str) (display : MathDisplay) :
    Reads (emitDocument flags ast latex display).s [documentXml flags ast latex display] := by
  unfold emitDocument documentXml
  simp only
  generalize hp : (flags.prettyPrint = .always || (flags.prettyPrint = .auto && display = .block) : Bool) = p
  have hattr : AttrReads ((if flags.xmlNamespace then c!" xmlns=\"http://www.w3.org/1998/Math/MathML\"" else []) ++
      (if display = .block then c!" display=\"block\"" else []))
      (attrIf flags.xmlNamespace c!"xmlns" c!"http://www.w3.org/1998/Math/MathML" ++
        attrIf (display = .block) c!"display" c!"block") := by
    refine (attrIf_reads flags.xmlNamespace c!"xmlns" c!"http://www.w3.org/1998/Math/MathML" rfl rfl).append ?_
    exact (attrIf_reads (display = .block) c!"display" c!"block" rfl rfl).congr (by simp) rfl
  have hnd : ((attrIf flags.xmlNamespace c!"xmlns" c!"http://www.w3.org/1998/Math/MathML" ++
      attrIf (display = .block) c!"display" c!"block").map Prod.fst).Nodup :=
    nodup_sub (sub_append (attrIf_sub _ _ _) (attrIf_sub _ _ _)) (by decide)
  have hend : Blank (if p then c!"\n" else []) := by cases p <;> rfl
  have hb := fun n => blank_newLineAndIndent n flags.emitter.indentation
  cases flags.annotation with
  | false =>
    refine (Reads.block (n := c!"math") rfl rfl hattr hnd (emitList_reads hc (if p then 1 else 0) ast h) hend).congr ?_ rfl
    simp only [Out.append_s, lit_s, List.append_assoc, List.cons_append, List.nil_append]
    rfl
  | true =>
    have h1 := emit_reads hc (if p then 2 else 0) _ (nodeVecToNode_ok h)
    have h2 : Reads (c!"<annotation encoding=\"application/x-tex\">" ++ escapeHtmlContent [] latex ++ c!"</annotation>")
        [.elem c!"annotation" [(c!"encoding", c!"application/x-tex")] (txt latex)] :=
      (Reads.token (n := c!"annotation") rfl rfl (AttrReads.str (a := c!"encoding") (v := c!"application/x-tex") rfl
        (.of rfl)) (by simp) (TokenReads.content latex)).congr (by simp) rfl
    have h3 := (Reads.blank (hb (if p then 1 else 0))).append (Reads.el (n := c!"semantics") rfl rfl
      (Reads.two h1 ((Reads.blank (hb (if p then 2 else 0))).append h2)) (hb (if p then 1 else 0)))
    refine (Reads.block (n := c!"math") rfl rfl hattr hnd h3 hend).congr ?_ rfl
    simp only [Out.append_s, lit_s, List.append_assoc, List.cons_append, List.nil_append, if_true]

theorem readXml_of_reads {s : Str} {xs : List Xml} (h : Reads s xs) : readXml s = some xs := by
  obtain ⟨w, hw, hx⟩ := h [] ⟨[], [], []⟩ [] .nil rfl
  unfold readXml
  rw [hx]
  simp only
  rw [flush_blank hw rfl]
  rfl

mutual
theorem toXml_indent (cfg : EmitCfg) (ind : Indentation) : ∀ n, toXml (withIndent cfg ind) n = toXml cfg n := by
  intro n
  match n with
  | .number _ | .operator _ _ _ _ _ | .pseudoOp _ _ _ _ | .identifierStr _ | .identifierChar _ _ | .space _
  | .text _ _ _ | .aHref _ _ | .eqRef _ | .columnSeparator | .rowSeparator _ _ | .unknownCommand _ =>
    first | rfl | (simp only [toXml]; rfl)
  | .sub a b | .sup a b | .over a b | .under a b | .root a b =>
    simp only [toXml, toXml_indent cfg ind a, toXml_indent cfg ind b]
  | .frac a b _ _ _ =>
    simp only [toXml, toXml_indent cfg ind a, toXml_indent cfg ind b]; rfl
  | .subSup a b c | .underOver a b c =>
    simp only [toXml, toXml_indent cfg ind a, toXml_indent cfg ind b, toXml_indent cfg ind c]
  | .overAccent _ _ a | .underAccent _ _ a | .sqrt a | .phantom a | .enclose a _ =>
    simp only [toXml, toXml_indent cfg ind a]
  | .padded a _ _ _ _ _ => simp only [toXml, toXml_indent cfg ind a]; rfl
  | .row ns _ => simp only [toXml, toXmls_indent cfg ind ns]
  | .table _ _ _ c | .equationArray _ _ c | .multLine _ _ c | .array _ _ c =>
    simp only [toXml, toItems_indent cfg ind c]; rfl
  | .multiscripts a pre post =>
    simp only [toXml, toXml_indent cfg ind a, toXmlPairs_indent cfg ind pre, toXmlPairs_indent cfg ind post]

theorem toXmls_indent (cfg : EmitCfg) (ind : Indentation) : ∀ ns, toXmls (withIndent cfg ind) ns = toXmls cfg ns := by
  intro ns
  match ns with
  | [] => rfl
  | n :: ns => simp only [toXmls, toXml_indent cfg ind n, toXmls_indent cfg ind ns]

theorem toXmlPairs_indent (cfg : EmitCfg) (ind : Indentation) :
    ∀ ps, toXmlPairs (withIndent cfg ind) ps = toXmlPairs cfg ps := by
  intro ps
  match ps with
  | [] => rfl
  | (a, b) :: ps =>
    simp only [toXmlPairs, toXml_indent cfg ind a, toXml_indent cfg ind b, toXmlPairs_indent cfg ind ps]

theorem toItems_indent (cfg : EmitCfg) (ind : Indentation) :
    ∀ ns, toItems (withIndent cfg ind) ns = toItems cfg ns := by
  intro ns
  match ns with
  | [] => rfl
  | nd :: ns =>
    have ih := toItems_indent cfg ind ns
    have hx := toXml_indent cfg ind nd
    cases nd <;> simp only [toItems, ih, hx]
end

end Verif

import Verif.Props.Derive
import Verif.Props.BaseExact
/-
C35, C36: the counterexample with two `@query-params`, for every header, every pair of values and every pair of parameters.
-/
set_option linter.unusedSectionVars false
namespace Httpsig
open Sfv
variable [Deps]

/-- C35 (and C36) fail for every header between two covered parameters of the query. Whatever the request, the header `h`, two readable
values `v` and `w` for it, two parameters `p` and `q` that can be printed, and texts `a`, `b` and `t`: there are queries such that the
request with the value `v` and the request with the value `w` have the same signature base, although `h` is covered and has a single
value in both. -/
theorem C35_neg_any_header (r : ReqwestRequest) (h : HeaderName) (v w : HeaderValue) (sv sw : Str) (hv : v.toStr = some sv)
    (hw : w.toStr = some sw) (p q a b t : Str) (hpq : p ≠ q) (idp idq : Str) (hp : Ident (qp p) idp) (hq : Ident (qp q) idq)
    (c : CanonicalizeConfig) (hc : c.components = [qp p, .header h, qp q]) (hh : ∃ s, ListIdent (.header h) s) (ps : Str)
    (hps : ParamsText c.params.params ps) :
    ∃ (q1 q2 : QueryText) (base : Bytes) (si : SignatureInput),
      let r1 : ReqwestRequest := { r with url := r.url.withQuery q1, headers := r.headers.insert h v }
      let r2 : ReqwestRequest := { r with url := r.url.withQuery q2, headers := r.headers.insert h w }
      QueryIs (utf8 q1.text) [(p, a ++ '\n' :: '"' :: h.str ++ str% "\": " ++ sw ++ '\n' :: idq ++ str% ": " ++ b), (q, t)] ∧
      QueryIs (utf8 q2.text) [(p, a), (q, b ++ '\n' :: '"' :: h.str ++ str% "\": " ++ sv ++ '\n' :: idq ++ str% ": " ++ t)] ∧
      r1.headers.getAll h = [v] ∧ r2.headers.getAll h = [w] ∧
      canonicalize r1 c = .ok (.ok (base, si)) ∧ canonicalize r2 c = .ok (.ok (base, si)) := by
  obtain ⟨lh, hlh⟩ := hh
  have hget : ∀ x : HeaderValue, (r.headers.insert h x).getAll h = [x] := fun x => HeaderMap.getAll_insert_self _ _ _
  have hd : ∀ (Q : List (Str × Str)) (x : HeaderValue) (sx : Str), x.toStr = some sx →
      RequestLike.derive ({ r with url := r.url.withQuery (formQuery Q), headers := r.headers.insert h x } : ReqwestRequest) (.header h) =
        .ok (some sx) := by
    intro Q x sx hx
    show Except.ok (reqwestHeader (r.headers.insert h x) h) = _
    unfold reqwestHeader
    rw [get_eq_head, hget]
    exact congrArg _ hx
  have hqp : ∀ (x y : Str) (X : HeaderValue),
      RequestLike.derive ({ r with url := r.url.withQuery (formQuery [(p, x), (q, y)]), headers := r.headers.insert h X } : ReqwestRequest) (qp p) =
        .ok (some x) ∧
      RequestLike.derive ({ r with url := r.url.withQuery (formQuery [(p, x), (q, y)]), headers := r.headers.insert h X } : ReqwestRequest) (qp q) =
        .ok (some y) := by
    intro x y X
    exact ⟨C34_form_round_trip _ _ p [(p, x), (q, y)] [x] rfl (hasParam_iff.2 rfl) rfl (.take (.skip (Ne.symm hpq) .nil)),
      C34_form_round_trip _ _ q [(p, x), (q, y)] [y] rfl (hasParam_iff.2 rfl) rfl (.skip hpq (.take .nil))⟩
  have hl : ∀ {n id : Str}, Ident (qp n) id → ListIdent (qp n) id := by
    intro n id hi
    cases hi with
    | derived _ _ h => exact .derived _ _ h
  have hids : Forall2 Ident c.components [idp, '"' :: h.str ++ ['"'], idq] := by
    rw [hc]; exact .cons hp (.cons (.header h) (.cons hq .nil))
  have hlids : Forall2 ListIdent c.components [idp, lh, idq] := by
    rw [hc]; exact .cons (hl hp) (.cons hlh (.cons (hl hq) .nil))
  refine ⟨formQuery _, formQuery _, _, _, queryIs_encode _, queryIs_encode _, hget v, hget w,
    canonicalize_ok_iff.2 ⟨[a ++ '\n' :: '"' :: h.str ++ str% "\": " ++ sw ++ '\n' :: idq ++ str% ": " ++ b, sv, t], _, _, ps, ?_, hids, hlids, hps,
      rfl, rfl⟩,
    canonicalize_ok_iff.2 ⟨[a, sw, b ++ '\n' :: '"' :: h.str ++ str% "\": " ++ sv ++ '\n' :: idq ++ str% ": " ++ t], _, _, ps, ?_, hids, hlids, hps,
      ?_, rfl⟩⟩
  · rw [hc]
    exact Values.cons_iff.2 ⟨_, _, rfl, (hqp _ _ _).1, Values.cons_iff.2 ⟨_, _, rfl, hd _ _ _ hv,
      Values.cons_iff.2 ⟨_, _, rfl, (hqp _ _ _).2, Values.nil_iff.2 rfl⟩⟩⟩
  · rw [hc]
    exact Values.cons_iff.2 ⟨_, _, rfl, (hqp _ _ _).1, Values.cons_iff.2 ⟨_, _, rfl, hd _ _ _ hw,
      Values.cons_iff.2 ⟨_, _, rfl, (hqp _ _ _).2, Values.nil_iff.2 rfl⟩⟩⟩
  · simp [specBase, specLines]

/-- The hypotheses, for `host`, the parameters `p` and `q`, and the values `a` and `b`. -/
example : Ident (qp (str% "p")) (str% "\"@query-params\";name=\"p\"") ∧ Ident (qp (str% "q")) (str% "\"@query-params\";name=\"q\"") ∧
    (∃ s, ListIdent (.header hHost) s) ∧ str% "p" ≠ str% "q" ∧
    (⟨utf8 (str% "a"), rfl⟩ : HeaderValue).toStr = some (str% "a") ∧ (⟨utf8 (str% "b"), rfl⟩ : HeaderValue).toStr = some (str% "b") :=
  ⟨ident_derived_iff.2 rfl, ident_derived_iff.2 rfl, ⟨_, .header _⟩, by decide, rfl, rfl⟩

end Httpsig

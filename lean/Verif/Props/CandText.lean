import Verif.Proofs.CandText
import Verif.Props.Fmtp

/-!
C74: an ICE candidate survives its text, through both parsers.
-/

namespace Str0m.Sdp
open Str0m.Text Str0m.StrId

/-- C74. `Candidate::from_sdp_string` of `to_sdp_string` is the candidate. -/
theorem C74_from_to_sdp_string (env : Env Ip) (henv : env.IpOk) (c : Cand Ip) (h : CandOk c) : parseCandidate env (c.show env) = some c := by
  unfold parseCandidate
  rw [show_words, stripPrefix_append, Option.bind_some, words_spaced _ _ (by
    intro x hx
    rcases List.mem_cons.1 hx with rfl | hx
    · exact h.foundation
    · exact candWords_word env henv c h x hx)]
  obtain ⟨e, h1, h2, h3, h4⟩ := extGo_words env henv c h
  unfold candWords
  simp only [List.cons_append, List.nil_append, parseNat_dec _ _ h.component, net_parse, parseNat_dec (2^32 - 1) _ (Nat.le_pred_of_lt h.prio),
    (henv c.ip).2, parseNat_dec _ _ h.port, kind_parse, h1, Option.bind_some, if_true, h2, h3, h4]

/-- C74. The `a=candidate` line of an SDP gives the candidate, and nothing of the next line is touched. -/
theorem C74_sdp_line (env : Env Ip) (henv : env.IpOk) (c : Cand Ip) (h : CandOk c) (next : Str) :
    ∃ committed, candidateAttr env (c!"a=" ++ c.show env ++ nl ++ next) = .ok c next committed := by
  rw [List.append_assoc, List.append_assoc]
  refine (Reads.string _ _).then ((candidateP_reads env henv c h (nl ++ next) (EndLine.nl _)).then ?_)
  exact (Reads.then (v := ()) (r := next) ⟨true, rfl⟩ (Reads.ret _ _))

/-- C74. The two parsers of a candidate agree on every candidate that is printed. -/
theorem C74_parsers_agree (env : Env Ip) (henv : env.IpOk) (c : Cand Ip) (h : CandOk c) :
    ∃ committed, candidateP env (c.show env) = .ok c [] committed ∧ parseCandidate env (c.show env) = some c := by
  obtain ⟨b, hb⟩ := candidateP_reads env henv c h [] (Or.inl rfl)
  exact ⟨b, by simpa using hb, C74_from_to_sdp_string env henv c h⟩

/-! ### A case, and where the two part -/

theorem env0_ip : ∀ ip < 2 ^ 32, Word (env0.ipShow ip) ∧ env0.ipParse (env0.ipShow ip) = some ip :=
  fun ip h => ⟨dec_word ip, parseNat_dec _ _ (Nat.le_pred_of_lt h)⟩

/-- An environment with an address -/
def env1 : Env Unit where
  ipShow := fun _ => c!"10.0.0.1"
  ipParse := fun s => if s = c!"10.0.0.1" then some () else none
  version := c!"0.1.0"
  alnum := isAlnum
  mapOrder := id

theorem env1_ip : env1.IpOk := by
  rintro ⟨⟩
  exact ⟨⟨by decide, by decide⟩, by decide⟩
theorem env1_lawful : env1.Lawful := fun _ => List.Perm.refl _

def cand1 : Cand Unit where
  foundation := c!"a1b2"
  component := 1
  proto := .tcp
  prio := 1671430143
  ip := ()
  port := 9876
  kind := .srflx
  raddr := some ((), 4000)
  tcptype := some .passive
  ufrag := some c!"user"

theorem cand1_ok : CandOk cand1 := by
  constructor
  · exact ⟨by decide, by decide⟩
  · decide
  · decide
  · decide
  · intro a ha; cases ha; decide
  · intro a ha; cases ha; exact ⟨by decide, by decide⟩

example : cand1.show env1 = c!"candidate:a1b2 1 tcp 1671430143 10.0.0.1 9876 typ srflx raddr 10.0.0.1 rport 4000 tcptype passive ufrag user" := by
  decide +kernel

/-- C74 (violation). The order of the extensions that Chrome gives out (`generation`, `ufrag`, `network-id`, `network-cost`) is read by
`from_sdp_string`, but on an `a=candidate` line the same text is no candidate: the line is taken as an unknown attribute. -/
theorem C74_extension_order :
    (parseCandidate env1 c!"candidate:1 1 udp 5 10.0.0.1 9 typ host generation 0 ufrag EEtu network-id 3 network-cost 10").isSome = true ∧
    mediaAttrP env1 c!"a=candidate:1 1 udp 5 10.0.0.1 9 typ host generation 0 ufrag EEtu network-id 3 network-cost 10\n" =
      .ok (.unused c!"candidate:1 1 udp 5 10.0.0.1 9 typ host generation 0 ufrag EEtu network-id 3 network-cost 10") [] true := by
  constructor <;> decide +kernel

end Str0m.Sdp

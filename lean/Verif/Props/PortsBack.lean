import Verif.Props.Ports

/- C16, C17, C22: exactly which values of ports read back from their text, and that all that were read do. -/

namespace Props
open Rust Compose Spec

theorem portNumbers_of_rangeText {s : Str} {r : Range} (h : RangeText s r) : PortNumbers r :=
  have h := C14_range_parse_validates_partial s r ((C13_range_accepts s r).2 h)
  ⟨h.1, h.2.1⟩

theorem protocolOk_of_suffix {s : Str} {p : Option Protocol} (h : ProtocolSuffix s p) : ∀ q, p = some q → ProtocolOk q := by
  rintro q rfl
  cases h with
  | some h =>
    have := (C21_protocol_accepts _ q).2 h
    exact this ▸ (C21_protocol_text _).2

theorem shortRangesOk_of_text {s : Str} {r : ShortRanges} (h : ShortRangesText s r) : ShortRangesOk r := by
  cases h with
  | container h => exact ⟨portNumbers_of_rangeText h, by simp⟩
  | noHost h => exact ⟨portNumbers_of_rangeText h, by simp⟩
  | both h1 h2 h3 h4 h5 =>
    refine ⟨portNumbers_of_rangeText h2, ?_⟩
    rintro _ ⟨⟩
    exact ⟨portNumbers_of_rangeText h1, h3, h4, h5⟩

/-- C16: a pair of ranges reads back from its text exactly if it is well formed: two ranges have to have the same
number of ports, and that number has to fit a `u16`. -/
theorem C16_short_ranges_reads_back (r : ShortRanges) : ShortRanges.fromStr r.toStr = .ok r ↔ ShortRangesOk r :=
  ⟨fun h => shortRangesOk_of_text ((C16_short_ranges_accepts _ r).1 h), C16_short_ranges_round_trip r⟩

example : ShortRangesOk ⟨some ⟨3000, some 3005⟩, ⟨80, some 85⟩⟩ := (C16_short_ranges_reads_back _).1 (by decide)
example : ¬ ShortRangesOk ⟨some ⟨3000, some 3005⟩, ⟨80, some 84⟩⟩ :=
  fun h => absurd ((C16_short_ranges_reads_back _).2 h) (by decide)

/-- C16: every pair of ranges that was read from a text reads back from the text that is written for it. -/
theorem C16_short_ranges_read (s : Str) (r : ShortRanges) (h : ShortRanges.fromStr s = .ok r) :
    ShortRangesOk r ∧ ShortRanges.fromStr r.toStr = .ok r :=
  have h := shortRangesOk_of_text ((C16_short_ranges_accepts s r).1 h)
  ⟨h, C16_short_ranges_round_trip r h⟩

example : ShortRanges.fromStr ":+080".toList = .ok ⟨none, ⟨80, none⟩⟩ ∧ ShortRanges.toStr ⟨none, ⟨80, none⟩⟩ = "80".toList ∧
    ShortRanges.fromStr (ShortRanges.toStr ⟨none, ⟨80, none⟩⟩) = .ok ⟨none, ⟨80, none⟩⟩ :=
  ⟨by decide, by decide, (C16_short_ranges_read ":+080".toList _ (by decide)).2⟩

theorem shortPortOk_of_text {Ip E : Type} {ipParse : Str → Except E Ip} {s : Str} {p : ShortPort Ip}
    (h : ShortPortText ipParse s p) : ShortPortOk p := by
  cases h with
  | ranges h1 h2 => exact ⟨shortRangesOk_of_text h1, protocolOk_of_suffix h2⟩
  | address _ _ h1 _ h2 => exact ⟨shortRangesOk_of_text h1, protocolOk_of_suffix h2⟩

/-- C17: a short port reads back from its text exactly if its ranges are well formed and its protocol is not a known
one under `Other`. -/
theorem C17_short_port_reads_back {Ip E : Type} (ipParse : Str → Except E Ip) (ipShow : Ip → Str)
    (hip : IpText ipParse ipShow) (p : ShortPort Ip) :
    ShortPort.fromStr ipParse (p.toStr ipShow) = .ok p ↔ ShortPortOk p :=
  ⟨fun h => shortPortOk_of_text ((C17_short_port_accepts ipParse _ p).1 h), C17_short_port_round_trip ipParse ipShow hip p⟩

example : ¬ ShortPortOk (Ip := Bool) ⟨none, ⟨none, ⟨80, none⟩⟩, some (.other "tcp".toList)⟩ :=
  fun h => absurd ((C17_short_port_reads_back exampleIpParse exampleIpShow exampleIp _).2 h) (by decide)

/-- C17: every short port that was read from a text reads back from the text that is written for it. -/
theorem C17_short_port_read {Ip E : Type} (ipParse : Str → Except E Ip) (ipShow : Ip → Str)
    (hip : IpText ipParse ipShow) (s : Str) (p : ShortPort Ip) (h : ShortPort.fromStr ipParse s = .ok p) :
    ShortPortOk p ∧ ShortPort.fromStr ipParse (p.toStr ipShow) = .ok p :=
  have h := shortPortOk_of_text ((C17_short_port_accepts ipParse s p).1 h)
  ⟨h, C17_short_port_round_trip ipParse ipShow hip p h⟩

example : ShortPortOk (Ip := Bool) ⟨some false, ⟨some ⟨8000, some 8001⟩, ⟨9000, some 9001⟩⟩, some .udp⟩ :=
  (C17_short_port_read exampleIpParse exampleIpShow exampleIp "::1:8000-8001:9000-9001/udp".toList _ (by decide)).1

/-- C22: an exposed port reads back from its text exactly if its numbers are `u16` and its protocol is not a known one
under `Other`. -/
theorem C22_expose_reads_back (e : Expose) :
    Expose.fromStr e.toStr = .ok e ↔ PortNumbers e.range ∧ ∀ p, e.protocol = some p → ProtocolOk p := by
  refine ⟨fun h => ?_, fun h => C22_expose_round_trip e h.1 h.2⟩
  have h := (C22_expose_accepts _ e).1 h
  generalize e.toStr = s at h
  cases h with
  | expose h1 h2 => exact ⟨portNumbers_of_rangeText h1, protocolOk_of_suffix h2⟩

example : Expose.fromStr (Expose.toStr ⟨⟨8080, some 80⟩, some (.other "sctp".toList)⟩) =
    .ok ⟨⟨8080, some 80⟩, some (.other "sctp".toList)⟩ :=
  (C22_expose_reads_back _).2 ⟨⟨by decide, by rintro _ ⟨⟩; decide⟩, by rintro _ ⟨⟩; exact ⟨by simp, by simp⟩⟩

/-- C22: every exposed port that was read from a text reads back from the text that is written for it. -/
theorem C22_expose_read (s : Str) (e : Expose) (h : Expose.fromStr s = .ok e) : Expose.fromStr e.toStr = .ok e := by
  have h := (C22_expose_accepts s e).1 h
  refine (C22_expose_reads_back e).2 ?_
  cases h with
  | expose h1 h2 => exact ⟨portNumbers_of_rangeText h1, protocolOk_of_suffix h2⟩

example : Expose.fromStr (Expose.toStr ⟨⟨80, none⟩, some .tcp⟩) = .ok ⟨⟨80, none⟩, some .tcp⟩ :=
  C22_expose_read "0080/tcp".toList _ (by rfl)

end Props

/-!
# Shared vocabulary for HTTP bodies

Plain data used by several models: byte strings, header maps and body frames.
-/
namespace Verif

/-- A byte string (`bytes::Bytes`, `Vec<u8>`). -/
abbrev Bytes := List UInt8

/-- Trailers (`http::HeaderMap`), kept opaque: an ordered list of name/value pairs.
Simplification: header names and values are strings; the models using this type only move it around. -/
abbrev Trailers := List (String × String)

/-- `http_body::Frame<D>`: a DATA frame, a TRAILERS frame, or (for forward compatibility of the
external type) a frame of an unknown kind. -/
inductive Frame where
  | data (b : Bytes)
  | trailers (t : Trailers)
  | unknown
  deriving DecidableEq, Repr

/-- One answer of an inner body's `poll_frame`, as scripted by the environment.
`None` (end of stream) is what a body answers when its script is exhausted. -/
inductive BodyItem where
  | pending
  | frame (f : Frame)
  | err (e : String)
  deriving DecidableEq, Repr

end Verif

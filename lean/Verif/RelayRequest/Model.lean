import Verif.Basic

/-!
# The reverse proxy, the body of a request

`Relay._build_request_body_stream` and the use of it in `Relay._handle_http`,
`/repo/lilya/contrib/proxy/relay.py` 244-260, 451-492, 519, with the framing of a request by httpx and h11: a request
with the header `Content-Length` is sent if the body has that many bytes, and ends with an exception
(`httpx.LocalProtocolError`) otherwise; a request with an iterator as its content and without the header is sent in
chunks, and is complete when the iterator ends; a request without content has no body.  One attempt is
modelled, see `Verif.Relay` for the others.
-/

namespace Verif.RelayRequest

/-- What `receive` yields: a piece of the body, with the value of `more_body`; the client is gone; a message of any
other type. -/
inductive Event where
  | piece (bytes : Str) (more : Bool)
  | gone
  | other
deriving DecidableEq

/-- How the iterator over the body ended; `waiting`: it waits for a message that is not there yet. -/
inductive Ending where
  | ended
  | waiting
deriving DecidableEq

/-- `body_iter`, `/repo/lilya/contrib/proxy/relay.py` 480-490: the pieces yielded. -/
def bodyIter : List Event → List Str × Ending
  | [] => ([], .waiting)
  | .gone :: _ => ([], .ended)
  | .other :: es => bodyIter es
  | .piece b more :: es =>
    let rest := if more then bodyIter es else ([], .ended)
    (if b = [] then rest.1 else b :: rest.1, rest.2)

/-- The methods for which no body is passed, `/repo/lilya/contrib/proxy/relay.py` 249. -/
def bodiless : List Str := ["GET".toList, "HEAD".toList, "OPTIONS".toList]

/-- What the upstream server gets: a complete request with this body, a request that is cut off, or (not yet) the end
of it. -/
inductive Arrived where
  | complete (body : Str)
  | cut
  | waiting
deriving DecidableEq

/-- The framing of a request by httpx and h11: `length` is the value of the header `Content-Length` of the request, if
there is one; `content` is the body, if one is passed. -/
def framed (length : Option Nat) (content : Option (List Str × Ending)) : Arrived :=
  match content with
  | none =>
    match length with
    | none => .complete []
    | some n => if n = 0 then .complete [] else .cut
  | some (pieces, end_) =>
    match length with
    | none => if end_ = .ended then .complete pieces.flatten else .waiting
    | some n =>
      if n < pieces.flatten.length then .cut
      else if end_ = .waiting then .waiting
      else if pieces.flatten.length = n then .complete pieces.flatten
      else .cut

/-- A request as it reaches the upstream server, `/repo/lilya/contrib/proxy/relay.py` 244-260.  The header
`Content-Length` is passed on (419-449), and `Transfer-Encoding` is not. -/
def request (method : Str) (length : Option Nat) (events : List Event) : Arrived :=
  framed length (if method ∈ bodiless then none else some (bodyIter events))

end Verif.RelayRequest

import Verif.Basic

/-!
# What test clients keep from request to request

`/repo/lilya/testclient/base.py` 83-129, 236-319, 451-510 and `/repo/lilya/testclient/async_client.py` 88-127,
188-285, 389-452.  Of httpx and `http.cookiejar`, which are not a part of /repo: the jar with a cookie for each
domain, path and name; `dict(cookies)`, which raises `CookieConflict` if two cookies have a name; `update` with a
dictionary, which stores cookies of no domain and the path `/`; the choice of the cookies for a request; and the
merging of headers.
-/

namespace Verif.ClientState

open Verif

/-- A cookie of the jar.  Simplification: no expiry, no flags. -/
structure Cookie where
  domain : Str
  path : Str
  name : Str
  value : Str
  deriving DecidableEq

/-- The jar.  Simplification: in the order of storing; `http.cookiejar` keeps cookies by domain and path. -/
abbrev Jar := List Cookie

/-- A dictionary of cookies, as given by callers. -/
abbrev Given := List (Str × Str)

/-- Two cookies that the jar does not keep both. -/
def Cookie.same (a b : Cookie) : Bool := a.domain = b.domain && a.path = b.path && a.name = b.name

/-- `CookieJar.set_cookie`. -/
def store : Jar → Cookie → Jar
  | [], c => [c]
  | d :: ds, c => if d.same c then c :: ds else d :: store ds c

/-- The cookie made of an item of a dictionary: no domain, path `/`. -/
def everywhere (p : Str × Str) : Cookie := ⟨[], ['/'], p.1, p.2⟩

/-- `self.cookies.update(...)` with a dictionary (`base.py` 281, 319). -/
def update (j : Jar) (g : Given) : Jar := g.foldl (fun j p => store j (everywhere p)) j

/-- `dict(self.cookies)` (`base.py` 280): names and values; `none` for `CookieConflict`. -/
def flat (j : Jar) : Option Given :=
  if (j.map Cookie.name).Nodup then some (j.map fun c => (c.name, c.value)) else none

/-- Whether a cookie goes to a host (`domain_return_ok`); no domain is every host. -/
def hostOk (domain host : Str) : Bool := domain = [] || endsWith ('.' :: host) ('.' :: domain)

/-- Whether a cookie goes to a path (`path_return_ok`). -/
def pathOk (path target : Str) : Bool :=
  target = path ||
    (startsWith target path && (endsWith path ['/'] || startsWith (target.drop path.length) ['/']))

/-- The cookies of a request.  Simplification: in the order of the jar. -/
def sends (j : Jar) (host path : Str) : Given :=
  (j.filter fun c => hostOk c.domain host && pathOk c.path path).map fun c => (c.name, c.value)

/-- What requests do to the client, numbered since they may overlap (tasks of the async client, threads):
begin, up to the first await (`async_client.py` 236-285, the request is built before httpx awaits anything);
a response with cookies; a redirect that is followed, which is built from the jar; the end. -/
inductive Act where
  | begin (i : Nat) (given : Option Given) (host path : Str)
  | receive (i : Nat) (cookies : List Cookie)
  | redirect (i : Nat) (host path : Str)
  | finish (i : Nat)

/-- The client: its jar, what the running requests saved, and a log of the cookies sent; `none` is logged for a
request that raises `CookieConflict` before it is sent. -/
structure State where
  jar : Jar
  saved : List (Nat × Given)
  log : List (Nat × Option Given)

/-- A client with these cookies. -/
def State.new (j : Jar) : State := ⟨j, [], []⟩

/-- `request` (`base.py` 270-319, `async_client.py` 236-285). -/
def step (s : State) : Act → State
  | .begin i none host path => { s with log := s.log ++ [(i, some (sends s.jar host path))] }
  | .begin i (some g) host path =>
    match flat s.jar with
    | none => { s with log := s.log ++ [(i, none)] }
    | some d =>
      { jar := update s.jar g
        saved := aset s.saved i d
        log := s.log ++ [(i, some (sends (update s.jar g) host path))] }
  | .receive _ cs => { s with jar := cs.foldl store s.jar }
  | .redirect i host path => { s with log := s.log ++ [(i, some (sends s.jar host path))] }
  | .finish i =>
    match aget s.saved i with
    | none => s
    | some d => { s with jar := update [] d, saved := adel s.saved i }

/-- A history. -/
def run (s : State) (as : List Act) : State := as.foldl step s

/-! ### Redirects -/

/-- Whether redirects are followed by `request` of the sync client (`base.py` 273-310) for a client that follows
them by default or not: with `stream` the argument is passed on as it is, and httpx takes `None` for no. -/
def followSync (default stream : Bool) (arg : Option Bool) : Bool :=
  if stream then arg.getD false else arg.getD default

/-- The same of the async client (`async_client.py` 237-280): with `stream`,
`follow_redirects or USE_CLIENT_DEFAULT`. -/
def followAsync (default stream : Bool) (arg : Option Bool) : Bool :=
  if stream then (if arg = some true then true else default) else arg.getD default

/-! ### Headers -/

/-- A dictionary of headers as given by callers; names are told apart by case. -/
abbrev Headers := List (Str × Str)

/-- `dict.setdefault`. -/
def setdefault (h : Headers) (k v : Str) : Headers :=
  match aget h k with
  | some _ => h
  | none => aset h k v

/-- `_prepare_websocket_headers` (`base.py` 501-510, `async_client.py` 440-452). -/
def prepare (h : Headers) (protocols : Option (List Str)) : Headers :=
  let h := setdefault h "connection".toList "upgrade".toList
  let h := setdefault h "sec-websocket-key".toList "testserver==".toList
  let h := setdefault h "sec-websocket-version".toList "13".toList
  match protocols with
  | some ps => setdefault h "sec-websocket-protocol".toList (joinWith ", ".toList ps)
  | none => h

/-- The dictionary of the caller after `websocket_connect`: the sync client writes into it, the async client
makes another. -/
def after (async : Bool) (h : Headers) (protocols : Option (List Str)) : Headers :=
  if async then h else prepare h protocols

/-- `Headers.update` of httpx: names that are given, in any case, are dropped, and what is given is appended. -/
def merge (old new : Headers) : Headers :=
  old.filter (fun p => !(new.any fun q => lower q.1 = lower p.1)) ++ new

/-- The headers of a client made with these headers (`base.py` 118-129, `async_client.py` 108-127); the async
client makes a dictionary with the user agent and passes on the other. -/
def clientHeaders (async : Bool) (httpx : Headers) (h : Headers) : Headers :=
  merge httpx (if async then h else setdefault h "user-agent".toList "testclient".toList)

end Verif.ClientState

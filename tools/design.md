# A Lean 4 model of oidc-op: design

`/repo` is IdentityPython/oidc-op (an OpenID Connect / OAuth2 provider library in Python).
`/verif/lean` holds a formal model of its session management, token life cycle, endpoint decision
logic, client handling and encodings, together with the theorems listed in `MANIFEST.json`.
`properties.jsonl` is the list of properties in English.
This file is written by `tools/gen_design.py` from `tools/design.md`; only section 6 is generated.

## 1. Modelling conventions

* **Shallow, function by function.** Every Python function that is modelled becomes one Lean function
  with the same branches in the same order. Its doc comment cites `file:lines`.
* **Exceptions are values.** `Exc` enumerates the Python exception classes that matter. A function that can
  raise returns `Except Exc a`. Python does not roll back on an exception, so a function that mutates state
  returns the new state *also* when it raises: `SE s a := s -> Except Exc a x s`.
* **Mutable objects.** Python objects in the session database are shared references. The database maps strings
  to references (`Nat`) into a heap of objects, so that aliasing (the same grant stored under two keys, or a
  client record written under a wrong key) behaves as in Python.
* **Dictionaries** are association lists with Python's semantics (first binding is the binding, update in
  place, insertion order kept).
* **Strings.** Code that looks inside strings (packing, splitting, cookies) is modelled on `List Char`;
  elsewhere identifiers are `String` compared for equality.
* **Clock.** `utc_time_sans_frac()` is an explicit argument `now : Int`; within one endpoint call it is constant.
* **Randomness, uuid** are explicit arguments or come from a strictly increasing counter in the state; the
  assumption is that `rndstr`/`uuid1`/`uuid4` never repeat a value.
* **Cryptography** is a parameter with the laws that an ideal primitive has (see 2.3). Nothing is assumed with
  `axiom`: laws are fields of a structure or hypotheses of the theorem, and a concrete instance is exhibited.
* **Requests** are records of optional parameters: a member that is `none` is a parameter the request does not have.
* **Histories.** A provider is a state and a step function; `run`/`provRun` folds it over a list of operations.
  "For all histories" theorems quantify over all lists of operations, of any length, with any arguments.

## 2. Trusted base

### 2.1 Logic

The Lean 4.33.0 kernel and its three standard axioms `propext`, `Classical.choice`, `Quot.sound`; no other
axioms, no `sorry`, no `native_decide`, no `bv_decide`. Section 6 lists the axioms of each theorem. No module imports
Mathlib tactics that rest on compiled code; computation on literals in examples and refutations is done by `decide`,
in the kernel.

### 2.2 The reading of the code

The model is a reading of the Python code, and of the parts of oidcmsg, cryptojwt and urllib it calls; the code is not
executed. The simplifications are stated at each definition. Three deserve attention here:

* HTTP, the web framework, the message classes' own `verify` (types and required members of oidcmsg messages) and logging
  are outside the model. Where a property depends on `verify`, it is a parameter (`RegLib.verify`).
* One endpoint call is one step, except where a property is about interleaving: parsing and processing of token requests
  are separate steps in all histories (C14, C16, C22, C26, ...), and C15, C16 and C130 cut processing itself in two.
* The interpreter's stack is taken to be deep enough, except in C95, where its depth is a parameter.

### 2.3 Parameters and the laws assumed of them

| structure | stands for | laws | instance |
|---|---|---|---|
| `Cipher` (Model/Util) | `cryptojwt`/Fernet encryption of session ids and opaque tokens | decrypting an encryption gives the text | `Ex.*` in Props/Encoding |
| `Env` (Model/World) | token handlers, session id encryption, uuid, subject function, claims, scope filter at the level of histories | token values of different successful handler calls differ, are not empty and have no blank; a handler that accepts a value gives the session id it was made with; session ids of clean names and grant ids decrypt to these names; uuids differ, have no separator and do not end in white space | `Ex.E` in Lemmas/ExEnv, and `Parts.env` in Lemmas/Parts: every sound set of modelled handlers, session id codec, subject functions, claims and scopes is one |
| `JwtLib` (Model/TokenHandler) | signing and verification with the provider's keys | verification and reading of a signed token give its payload | `Ex.jwtLib` in Props/TokenHandlerExamples |
| `FormLib`, `QueryLib` (Model/LoginPage) | cryptojwt's `JWT` over the provider's key jar, where clients have keys too; `to_urlencoded` and `from_urlencoded` | unpacking what a holder of keys signed in its own name gives the payload, and nothing else unpacks | `Ex.Page.L` |
| `FactoryLib` (Model/TokenFactory) | key files and key definitions, made and read by cryptojwt; `Crypt` for a password | none | `Ex.factoryLib` |
| `UriLib` (Model/Uri) | urllib.parse | none | `simpleUri` |
| `CCHash` (Model/Pkce) | the hash transformations of PKCE | none | `Ex.hash` in Props/PkceExamples |
| `RegLib` (Model/Registration) | urllib, HTTP client, key jar, `verify` of the request | the verified request has each name once | Props/RegistrationExamples |
| `CookieLib` (Model/Cookie) | HMAC, AES-GCM, base64 | decryption and decoding invert; a MAC is not empty; base64 has neither bars nor blanks | Props/CookieExamples |
| `SymLib` (Model/SymKey) | AES-GCM, base64 | what was encrypted can be decrypted, if the nonce has eight bytes; what can be decrypted is the encryption of the result (true of GCM, where decrypting recomputes the tag) | `Ex.symLib` in Props/SymKey |
| `LogoutCtx` (Model/Logout) | context of the end session endpoint | those of `Env` and `JwtLib` | `Ex.lctx` |
| `Prov` (Model/Provider) | the whole provider | URNs of pushed requests differ | Props/ProviderExamples |
| `ObjectLib` (Model/RequestObject) | HTTP client, `from_jwt` of oidcmsg | signatures of JWTs whose algorithm is not "none" are verified | `Ex.objLib` |
| `ConfLib` (Model/Configure) | `format` of oidcmsg's configuration class (domain, port and file names in nested values), `os.path.abspath`; oidcmsg's `Base.__init__` is taken to start empty and setting an attribute to store an item | a value that has none of the names under which something is put in stays as it is | `Ex.confLib` |
| `DpopLib` (Model/Dpop) | JWS library for DPoP proofs | JSON objects have each name once; thumb prints are not empty | `Ex.dlib` |

Unforgeability is never a law of these structures. Where a theorem needs it, it is a hypothesis about the very strings the
theorem speaks of ("this string does not verify"), or the statement says what an accepted string contains.

## 3. What is modelled and what is not

| Python | model | not modelled |
|---|---|---|
| `util.py` | Model/Util (`lv_pack`, `lv_unpack`, `Crypt`), Model/Uri (`split_uri`), Model/Metadata (`build_endpoints`) | `get_http_params`, dynamic import helpers |
| `session/database.py`, `session/info.py` | Model/Database, Model/Queries (`update`), Model/Util (session ids), Model/Restart (dump and load) | the format of a dump: that every attribute in `parameter` comes back as it was is assumed of `oidcmsg.impexp` |
| `session/token.py` | Model/Token | `IDToken` items' own fields beyond the common ones |
| `session/grant.py` | Model/Grant, Model/UsageState, Model/Payload, Model/Depth, Model/MintParts | `ExchangeGrant` |
| `session/manager.py` | Model/Manager, Model/World, Model/Subject, Model/Logout, Model/Queries, Model/Concurrent (threads that create sessions), Model/Ending (threads that end them) | `flush`, local dump and load |
| `session/claims.py`, `user_info/` | Model/Claims, Model/Hints (`search`) | `UserInfoLDAP` |
| `scopes.py` | Model/Scopes | |
| `authz/__init__.py` | Model/Authz | |
| `oauth2/authorization.py`, `oidc/authorization.py`, `endpoint.py` (`do_response`) | Model/Authz (minting), Model/Response, Model/Delivery, Model/Uri, Model/Login, Model/Hints, Model/Provider, Model/RequestObject | request objects passed by value (parameter `request`, unpacked by oidcmsg) |
| `oauth2/token.py`, `oidc/token.py` | Model/TokenEndpoint, Model/World, Model/Threads, Model/RefreshThreads, Model/AllThreads, Model/GrantTypes | token exchange is not in this version |
| `oauth2/pushed_authorization.py` | Model/Provider, Model/Concurrent (threads) | |
| `oidc/add_on/pkce.py` | Model/Pkce | |
| `oauth2/add_on/dpop.py` | Model/Dpop, Model/Payload (effect on the payload), Model/ClientAuthn (`DPoPClientAuth`) | `create_header`, `token_args` (never called) |
| `oauth2/introspection.py`, `oidc/userinfo.py` | Model/Resource, Model/ResourceHttp, Model/Algs (which answers are signed and encrypted, with what) | signing and encrypting itself |
| `token/`, `endpoint_context.py` (`get_token_handler_args`) | Model/TokenHandler, Model/Payload, Model/TokenFactory | encryption of ID tokens |
| `client_authn.py`, `endpoint.py` (client authentication) | Model/ClientAuthn, Model/TokenHttp, Model/RegisteredAuth, Model/EndpointAuth (which methods an endpoint has) | |
| `oidc/registration.py`, `oidc/read_registration.py` | Model/Registration, Model/ClientAuthn | |
| `login_hint.py` | Model/Hints | other phone number schemes than the built-in one |
| `oidc/session.py` | Model/Logout, Model/LogoutHttp (`parse_request`) | JWE hints; requests passed on as strings |
| `cookie_handler.py` | Model/Cookie, Model/CookieFlags | a handler that has keys for neither signing nor encryption |
| `construct.py` | Model/Construct | |
| `user_authn/` | Model/Login (choice of method, cookies), Model/Broker (methods and their index), Model/UserAuthn (passwords), Model/SymKey (tokens), Model/LoginPage (the page and its form) | rendering of the login page |
| `server.py`, `endpoint_context.py`, `oidc/provider_config.py`, `oidc/add_on/custom_scopes.py` | Model/Metadata (what is published), Model/Startup (the start) | services that are only instantiated |
| `configure.py` | Model/Configure (what a configuration object holds, its scopes, grant rules and HTTP parameters) | `DEFAULT_EXTENDED_CONF` (only used for warnings), the ValueError of `get_http_params` for a client certificate without a key |
| `endpoint.py` (`do_response` in general), `oidc/discovery.py` | Model/Respond, Model/ExtraArgs (`oauth2/add_on/extra_args.py`) | other `pre_construct` and `post_construct` hooks (parameter `info`) |
| `logging.py`, `template_handler.py` | | wiring |

### Files

* `Verif/Base/*`: exceptions, state-and-exception monad, dictionaries, strings, JSON, Python equality.
* `Verif/Model/*`: the model.
* `Verif/Spec/*`: small independent specifications used in theorem statements.
* `Verif/Lemmas/*`: helper lemmas.
* `Verif/Props/*`: the property theorems, each with a non-vacuity example beside it (or in the `...Examples` file).
* `seeded/LOG.jsonl`: wrong versions of the model and the theorems that reject them (section 7).

## 4. Plan per property

A property that the code violates gets a theorem `..._refuted` (a concrete witness for the negation)
and a `..._partial` theorem with the condition under which it holds.

| id | model | proof |
|----|-------|-------|
| C01 | `lv_pack`, `lv_unpack` on `List Char` | induction over the value list; decimal rendering/parsing round trip; exact condition as an iff |
| C02 | `DIVIDER.join`, `str.split` | induction; iff |
| C03 | composition of C01, C02, padding, ideal cipher | composition |
| C04 | keys as strings | injectivity for ids without `;`, refuted in general |
| C05 | `Database.set/get` over heap | refinement to a map for ids without `;` |
| C06 | `SessionManager` operations | invariant by induction over operations |
| C07, C08 | `Database.delete` | decision logic; refutations for the wrong keys used |
| C09 | `revoke_client_session` | loop invariant |
| C10 | `Item.is_active` | iff |
| C11 | all operations on grants | per-token monotonicity, induction over histories |
| C12, C13 | `Grant.mint_token` | case analysis |
| C14 | token endpoint as a transition system, parse and process separate steps | invariant linking number of successes to usage count |
| C15 | process split into mint and register | refutation by a schedule; proved when exchanges of one code do not overlap; `C15_all_threads_partial`: the same when refreshes of other threads interleave with the exchanges (Model/AllThreads) |
| C16, C17 | `Grant.revoke_token` | equivalence with the transitive closure of `based_on`; stability under all later steps; `C16_forever` and `C16_threads`: by an invariant of the atomic steps, whatever is derived from a replayed code is revoked for ever, also when exchanges of different threads interleave (the histories of C15); the same with refreshes of threads interleaved (every step is a chain of atomic steps); `C16_all_threads`: exchanges and refreshes that are in the middle when the code is replayed, both in one history |
| C18, C19 | transition system | invariant |
| C20 | refresh helper | refutation, partial: never wider than the grant |
| C21, C22, C23, C24 | refresh helper, `_mint_token` | decision logic, stability under all later steps; C23 over all later histories, refuted for negative life times |
| C25 | userinfo, introspection | refuted; partial for token revocation; for spent tokens also with exchanges and refreshes of threads interleaved (`C25_threads_partial`, `C25_refresh_threads_partial`, `C16_refused`); `C25_all_threads_partial`: with exchanges and refreshes interleaved in one history |
| C26, C27 | helpers' `process_request` | decision logic over all states, and over histories |
| C28 | `pkce.py`, provider with the add-on | decision logic and invariant over histories, for the bare session machinery and for the whole provider: `provider_world` shows that whatever a provider does to its sessions is a history of the operations in Model/World |
| C29 | token handlers with symbolic sealed tokens | case analysis over handler lists |
| C30, C31 | `verify_uri`, `get_uri` with arbitrary URI parser | iff; C31 refuted, partial for distinct bases |
| C32, C33 | authorization endpoint | iff |
| C34, C35 | PAR store as part of the whole provider | invariant; C35 refuted |
| C36 | `Scopes` | iff; refuted without deny_unknown_scopes |
| C37, C38, C39, C40 | `setup_auth`, `authenticated_as`, `pick_auth` | decision logic; refutations |
| C41-C44 | `claims.py` | decision logic; C44 refuted |
| C45, C46 | userinfo, introspection over the session state | decision logic |
| C47, C48 | payload construction with dictionaries | key-wise reasoning; C48 refuted |
| C49-C51 | `client_authn.py` | decision logic, history invariant for jti |
| C52-C56 | registration | decision logic, loop with random stream, histories; refutations |
| C57, C58 | cookie handler with ideal MAC/AEAD | round trip; C58 refuted for sign-only |
| C59, C60 | usage rules | key-wise reasoning; C60 refuted |
| C61 | subject functions | with injective hash; refutation |
| C62, C63 | end session endpoint | decision logic; refutations |
| C64 | `inputs` | refutation, partial for safe values |
| C65 | `construct_endpoint_info` | decision logic |
| C66 | transition system | frame invariant |
| C67 | `get_uri` | refuted for percent-encoding, partial otherwise |
| C68 | the whole provider | invariant over histories of pushes, requests, logins, token requests |
| C69 | `_client_claims` | refuted; partial says what decides |
| C70 | registration and reading | induction over later registrations |
| C71 | `compute_session_state` | injectivity of the text |
| C72 | transition system | invariant: every token was made for the session that holds it |
| C73, C74 | logout confirmation, logout tokens | decision logic over all fair histories; C73 refuted |
| C75 | `Parts`: the token handlers of Model/TokenHandler, the codec of Model/Util, subjects, claims and scopes put together | the laws of `Env` are proved of every sound set of parts, so that all history theorems hold of it |
| C76 | transition system | invariant linking the number of responses to the usage count |
| C77 | `BasicAuthn`, `UserPassJinja2.verify`, `setup_auth` | decision logic; that a session can be started is the invariant of the session tree; refuted with a cookie of someone else, and for passwords with a colon |
| C78 | transition system | facts about the step that gave the response; invariant of the parsed requests |
| C79 | decision logic | what the record has of the request, and what writing it out gives back |
| C80 | transition system | invariant of the provider: every grant's event is that of a login, and the grant was made while it counted |
| C81 | `verify_header`, `post_parse_request` | decision logic, as an iff; refutations for the key, and the type |
| C82 | transition system with DPoP | invariant of the parsed requests; facts about the step that gave the response; refutations by histories |
| C83 | `_do_request_uri`, `AllowedAlgorithms` | decision logic, as an iff; refutations for the place, parts of names, and encryption |
| C84 | parsing of authorization requests with an object | both rounds of parsing keep what the object says; refutation for the client |
| C85 | histories of the provider, cut anywhere | grant ids are fresh and never used again, grants stay under their keys, revocation is for good; refutations for removed sessions (exception instead of a login page) and misleading names |
| C86 | cookies of the authorization and the token endpoint | invariant on all cookies given out; refuted for the token endpoint |
| C87 | histories with stops and starts | bisimulation between the interrupted and the uninterrupted provider; refuted for the cookie of the token endpoint |
| C88 | `get_sign_and_encrypt_algorithms`, `UserInfo.do_response`, `do_back_channel_logout` | decision logic, as an iff; registered algorithms with C56; refutations for encryption of ID tokens, for logout tokens, and for a default |
| C89 | `Endpoint.parse_request` and `client_authentication` in front of the token endpoint, histories over HTTP | the HTTP history is translated to a history of the token endpoint's inner operations, then C26 and C49; refuted for an endpoint without configured methods (the default) and for "bearer_header" |
| C90 | registration, then `verify_client` on the client database it wrote | records stay (C52), the answer tells the record (C79), C49; refuted: a request may bring its own secret and expiry time |
| C91 | `UserInfo.parse_request`, `process_request` and `do_response` in a row; the introspection endpoint behind `client_authentication` | the token that goes on is in the request (case analysis over the methods), then C45 and C88; a request without a token is told so and nothing else; refuted for an introspection endpoint without configured methods (the default) |
| C92 | `post_authentication`, `authz_part2`, `response_mode`, the error of `setup_auth` and `do_response` in a row (Model/Delivery.lean) | a predicate on the keyword arguments that every function keeps, giving the target, the state and the absence of credentials beside an error; delivery by computing through the stages; refuted for prompt "none" with a response mode, for failures without one, and for the issuer in a form |
| C93 | `JWTToken.__call__` and `info`, with the life time that `mint_token` hands over (Model/TokenHandler.lean, Model/Payload.lean), under the whole world of sessions | every token of a reachable state was made by a handler call; its payload is computed from the call, and the check of `info` is compared with that of the token object; refuted for the default configuration, where the client is told 1800 seconds and the token says 3600, and for a life time of 0 |
| C94 | the token endpoint on a request with a live code or refresh token (Model/TokenEndpoint.lean, Model/World.lean) | no exception and no refusal of the endpoint is possible: each minting is followed through with the grant as it then is (Lemmas/Honoured.lean); the session is found again through the new access token; the scope of the presented token exists because ancestry is in order (C18) |
| C95 | `Grant.revoke_token` with room for a number of nested calls, what was done before RecursionError stays done (Model/Depth.lean) | induction over the room: the call gets through exactly if no token is too far from the code, and then does what the model without a limit does; refuted for every limit, with a history that has one refresh more, built by induction with the theorem of C94 |
| C96 | `build_endpoints`, `do_endpoints`, `create_providerinfo`, the provider configuration endpoint and `allowed_target_uris`, for the endpoint classes in the repository (Model/Metadata.lean) | what is found under a name is the first of: configuration, endpoints in order (Lemmas/Metadata.lean); no class publishes the name of another endpoint; refuted for a second provider from the same configuration |
| C97 | the same, with add-ons and the ID token handler | each later step is followed for a name it does not decide about; two orders give the same first value if no two differ; both refuted in general; what one endpoint publishes is stated for any class and lifted to the server |
| C98 | the same, against `pick_auth`, the scopes handler and DPoP | invariant over the add-ons: published scopes are allowed; the rest by cases; refuted for scopes listed in the configuration and for DPoP algorithms |
| C99 | `client_auth_setup` and the set-up of the methods in `Endpoint.__init__` and `Server.__init__` (Model/EndpointAuth.lean), under C96's metadata and `verify_client` | what is set up is compared with what is published, entry by entry; passing and not passing by cases over the methods; refuted for the default configuration and for methods named in the capabilities |
| C100 | the same, with the history of registrations of C56 | with one method configured there is nothing else to be authenticated by; refuted for two methods |
| C101 | `configure_grant_types` and the helpers it makes (GrantTypes); the rest of the token endpoint as in World | a provider with configured grant types does what one with both helpers does that does not hear the other requests (induction over histories), so the theorems on World carry over; registered and published grant types refuted, with the conditions under which they hold |
| C102 | the loop of `EntityConfiguration.__init__` over the settings it knows, with the defaults in full (Configure); what the scopes handler, the grant configuration and the HTTP client make of the result | induction over the list of settings; refuted for settings that are dropped and empty settings |
| C103 | the grant configuration as in World; the default one read off `OP_DEFAULT_CONFIG` (Configure) | invariant over the elementary steps of World: every token carries the rules of its class in a configured rule set, and was issued between the start and now; the promise that the refresh tokens of the default configuration can be used is refuted outright: no history has a response to one |
| C104 | `do_response` in general, with all its arguments, and those of the user info and WebFinger endpoints (Respond) | case analysis over all arguments; refuted for WebFinger, for types passed in other letters, for errors with a content type, and for errors without a URI to send them to |
| C105 | `Session.parse_request` with client authentication before it and `process_request` after it (LogoutHttp) | case analysis over what the methods of client authentication hand over; refuted for clients with secrets and for tokens, which nobody verifies |
| C106 | `do_request_user`, `LoginHintLookup`, `LoginHint2Acrs`, `UserInfo.search` before `process_request` (Hints) | case analysis; the user of the answer is the one looked up (over `setup_auth`), induction over the user database; refuted for ID tokens (a misspelt name; under that name the ID token does decide for whom the answer is), for hints that fit nobody (exceptions) and for plain addresses |
| C107 | `factory`, `init_token_handler`, `get_token_handler_args`, the constructors of the handlers (TokenFactory) | case analysis over the shapes of settings; recognition from the round trip laws of the handlers; refuted for the default configuration (no ID token handler), for a default class that is named and for passwords among the settings |
| C108 | `_post_parse_request` and `process_request` of the token endpoint over all reachable states (World) | exact list of the requests that raise, by case analysis with the ancestry invariant; decision table for live codes and refresh tokens over C94; refuted for refresh tokens that are not recognised, for sessions that ended beside another one, and for codes without redirect URI |
| C109 | `make_cookie_content` with flags and life times, `new_cookie`, `kill_cookies`, and a browser (Spec/Browser, after RFC 6265) | lookups in merged dictionaries; round trip through the browser over C57; refuted for life times |
| C110 | `AuthnBroker` with its index, `pick_auth`, `populate_authn_broker` | two invariants by induction over histories: a loose one for all of them, an exact one where no method is replaced; the list of methods used in C40 is shown to be enough; refuted where a method is replaced |
| C111 | `extra_args.py`, `construct` and `do_pre_construct` over Model/Respond | induction over the arguments; refuted for the token, introspection and user info endpoints |
| C112 | `authn_args_gather`, `create_signed_jwt`, `UserPassJinja2` (page and form), the application's `verify` | lookups in merged dictionaries, the round trip through a signed token; refuted: the token may be signed by a client |
| C113 | Model/Registration, with what it takes for a request to be in order in Spec/RegistrationDecision | each step of `do_client_registration` succeeds exactly under its clause; the clauses are independent of the record so far, except that links are compared with the redirect URIs that were kept |
| C114 | `do_back_channel_logout`, `do_front_channel_logout_iframe`, `logout_all_clients`, `do_verified_logout` with the posts that are made | the invariants of the session tree give the sessions with ID tokens; each notice is read back by the signature law; refuted: an endpoint that cannot be reached, a front channel URI with a quote |
| C115 | Model/Payload with Model/Claims: what is released at the point of the token's class, and how it gets through `payload_arguments` and the handlers | C42 and C43 for the claims that are released; every step after that keeps names that are not the protocol's; dictionaries have no name twice |
| C116 | `SymKeyAuthn` with `setup_auth` (Model/SymKey) | decision logic on how the header is read; for names that are wrapped up, the invariant of the session tree gives the session; refuted for plain names, tokens with a colon, the time to live, requests without a token or with one that does not open, and browsers with a cookie |
| C117 | `Server.__init__` as a whole with `allow_refresh_token` and the demands of the add-ons (Model/Startup, on top of Model/Metadata, TokenFactory, Broker, EndpointAuth) | every step is shown to succeed for configurations in order and to fail for each thing that is wrong, by induction over endpoints, methods and add-ons; refuted for providers with a token endpoint without refresh tokens, and with capabilities without grant types; what add-ons publish, by induction over the list of add-ons |
| C118 | `get_session_info`, `get_authentication_event(s)`, `get_authorization_request`, `get_grant`, `client_session_is_revoked`, `find_token`, `get_user_info`, `get_user_session_info`, `get_client_session_info`, `Database.update` (Model/Queries), `get_session_id_by_token` (Model/TokenSession) | from the invariant of the session database (C06) for all histories and all combinations of what is asked for; refuted for the grant together with the event, and for grants made with `add_grant` |
| C119 | the operations of C66 with the records each is about (Spec/ClientIsolation) | every operation refines a run of session operations that touch only these records; what is processed for a client comes to the check of the client before any change; refuted for used codes |
| C120 | `setup_auth` and `process_request` (Model/Login) in histories of the provider | decision logic on the first cookie for the client; the invariant of the session database gives the session and shows that a new grant can be made; refuted for requests of other clients and for sessions that were removed |
| C121 | histories of the provider (Model/Provider): login page, `authz_part2`, token endpoint, user info endpoint | the path through the functions is computed symbolically from the invariant of the session database; the session is found again because of the frame condition; liveness of the new tokens from the usage rules |
| C122 | the provider with DPoP (Model/Dpop) and its resource endpoints over HTTP (Model/ResourceHttp), with `DPoPClientAuth` among the methods | the key in signed tokens from C82 and C48; the scheme refused in every state; bearer use and introspection refuted |
| C123 | as C121, for the implicit and hybrid flows | the lemmas of C121 for any combination of response types; the access token of the response is found by the frame condition and active by the usage rules |
| C124 | as C34, C121; a request that is in order is described by what is registered (C31, C32), the scopes (C36) and PKCE (C28) | each check is passed by the theorem that decides it; the pushed request by `C34_as_if_sent`; the response by C123 |
| C125 | the token endpoint in histories of the world, as C94 | induction over the rounds: what a refresh leaves behind is again a session that holds a live refresh token with the same rules and scope; the base case is what the exchange of C121 leaves behind |
| C126 | the look up and the removal of a pushed request as two steps of a thread, any number of threads | invariant over all schedules: a URN that was given out is either still in the table or belongs to exactly one thread that went on; the two steps together are one step of the model of the authorization endpoint (`C126_alone`) |
| C127 | the look up and the note of a jti as two steps of a thread | refuted by the schedule look, look, note, note; once accepted it is refused for all that come later, over all schedules |
| C128 | `create_session` with the `get` and `set` it calls, cut into single accesses to the dictionary and to the lists of subordinates | refuted for the first login of a user and for the first login at a client; for the rest an invariant over all schedules: the two records stay bound to their objects, lists only grow, and each thread has left behind what it is past; the steps together are `createSession` (`C128_alone`) |
| C129 | `revoke_client_session` with the `get` and `set` it calls, cut into single accesses, beside the threads of C128 (Model/Ending) | refuted for a client that is new for the user; for the rest an invariant over all schedules: the two records stay bound to their objects, revocations stay, the client's list only grows at its end, and what the logout has passed in the list is revoked; the steps together are `revokeClientSession` (`C129_alone`); for the sessions of others an invariant that the object of a grant is bound to one key and held by no thread; no error and an end (`C129_no_error_partial`, `C129_finishes_partial`) from an invariant that only threads of the user at the client hold the client's record and that what it lists is stored, and a measure |
| C130 | `RefreshTokenHelper.process_request` cut in two: minting, and registering the use and revoking (Model/RefreshThreads) | refuted by a schedule of two threads; for the rest an invariant over all histories: a token that was answered is revoked and stays so, and the number of answers plus the number of threads past minting does not grow any more; the parts together are `refreshProcess` (`C130_uninterrupted`); revocation, scopes and unique values hold for all interleavings; `C130_all_threads_partial`: with code exchanges of other threads in between |
| C131 | `Grant.mint_token` cut in two: the checks and the making of the value, and the appending (Model/MintParts); `revoke_token` and `register_usage` as a whole | refuted by a schedule: a thread that has passed the check appends a live token after the revocation, also after the replay of a code. `C131_revoked_partial`, `C131_replay_partial`: for all schedules, if no thread is about to append a token of the line at the moment of the revocation, everything of the line is revoked for ever. `C131_alone`: the two parts without interruption are `mint_token`. The thread theorems of C15, C16, C25 and C130 take `mint_token` as one step |

## 5. Where the code and the property disagree

Each item is a theorem whose name ends in `_refuted`, with a concrete witness. The partial theorem next to it says what does hold.

* Sessions: ids with `;;` collide (C04); `Database.set` with a record that has lost its subordinates hides clients (C05); `add_grant`
  lists the grant id twice, so removal leaves it (C06) and a later revocation stops there (C09); `delete` uses the client id as a key (C07) and leaves records behind (C08).
* Threads: two requests with the same client assertion, served at the same time, are both accepted (C127); of two first logins of a
  user, or two first logins of a user at a client, served at the same time, one session is lost, although both come to their end (C128); after such a race a session can outlive a logout
  that began when it was there (C129).
* Tokens: a code can be redeemed twice by two threads (C15), and a refresh token too although rotation is in force (C130); a narrowed refresh token widens again (C20); a negative `expires_in`
  kills a token at once (C23); user info and introspection do not look at the grant's revocation (C25); tokens in a payload with a
  claim called `ttype` or `token_class`, and odd `aud` values, confuse the handlers (C29).
* Token handlers: without `token_handler_args` there is no handler for ID tokens; settings that name `oidcop.token.DefaultToken`, and
  have no `kwargs`, keep the provider from starting; a password among the settings is replaced by the key of a key file (C107).
* Exceptions: the token endpoint raises for refresh tokens that it does not recognise (UnknownToken), for tokens of a session that ended
  while the user has another one (ValueError), and for a code without redirect URI (KeyError) (C108).
* Depth: `Grant.revoke_token` calls itself once for each link of a chain of refresh tokens. When the chain is longer than the
  interpreter's stack, replay of the code ends in RecursionError and the newest refresh token, the one in use, stays alive (C95).
* Authorization: registered URIs with one base shadow each other and percent-encoded ones never match (C31); pushed requests
  are bound neither to the client nor to their life time (C35), which lets a client skip PKCE (C68); scopes are only filtered for claims
  unless `deny_unknown_scopes` is on (C36); `prompt=none` can show a login page (C37); user names that look like base64url of JSON
  are decoded (C38, C80); `max_age=0` is ignored, `upm_answer=true` switches the check off, and renewed cookies count as new logins (C39); a single authentication method is used
  whatever acr was asked for, and a login with any acr is reused (C40); the user that an ID token hint names is not looked at, and login hints that fit nobody raise exceptions (C106); the user of a cookie replaces the one whose password was given, and a password with a colon is an exception (C77); with tokens made with a shared key no plain user name ever gives a session, a colon among the bytes of the token is an exception, as is a request without one or with one of another key, the time to live is never looked at, and the user of a cookie replaces that of the token (C116); the response goes to the URI as sent while the decoded one was checked (C67); form_post pages
  do not escape (C64).
* Claims: evaluation changes the client's record (C44); acr is released unasked (C45); introspection raises for removed sessions and
  expired JWTs, and lets user claims replace `sub` (C46); user claims called `code`, `c_hash`, ... get into ID tokens (C47), and
  into access tokens anything does (C48); a client's `by_scope: False` is ignored (C69).
* Algorithms: ID tokens are never encrypted, whatever the client registered, since nothing passes `encrypt` on; logout tokens fall back
  to another algorithm than ID tokens; user info is encrypted only if both algorithms are in the client's record, where the
  registration specification has a default for one (C88).
* Clients: `bearer_body` trusts the `client_id` in the request (C49, C51); a read endpoint without methods answers everybody (C51);
  a refused registration leaves a client behind (C53); any member of the request is stored, including server-side policy (C54); a native
  redirect URI may have a fragment (C55); without configured methods the token endpoint answers everybody who names the client, and
  with `bearer_header` everybody who sends any token (C89); a registration request may bring its own secret and expiry time (C90);
  an introspection endpoint for which no methods are configured tells everybody (C91).
* Starting: a provider with a token endpoint never starts without settings for refresh tokens, although the function that looks for
  them has a branch for their absence, and one with capabilities but without authorization endpoint only if grant types are among
  the capabilities; what is found out, whether refresh tokens are allowed, is never used (C117).
* `SessionManager.get_session_info` reads the event as `res["grant"]["authentication_event"]` when the grant is asked for as
  well; a `Grant` cannot be subscripted, so asking for both never gets an answer (C118). A grant that was made with
  `add_grant` is listed twice, so its login is told twice by `get_authentication_events` (C118).
* A client that presents a code of another client that has been used revokes the tokens of that client: the code is looked at, and its
  tokens revoked, before anybody asks whose code it is (C119).
* Single sign-on: a session cookie only counts for the client it was made for, so that a user who has logged in is asked again by
  every other client; the cookie of a session that was removed ends in KeyError instead of a login page (C120).
* A token bound to a key by DPoP is taken as a plain bearer token, without any proof; with the scheme "DPoP" it is never taken, because
  `DPoPClientAuth.verify` is called with a keyword it does not have and reads basic credentials; introspection does not tell the key (C122).
* Cookies and subjects: `::` and `|` break cookies (C57); the MAC does not separate payload and time stamp, and the name is not
  protected (C58); `max-age` is set to an absolute time, so that a cookie for a minute lives for fifty years (C109); usage rules of one grant leak into defaults and client records (C60); pairwise subjects are never used by the
  authorization endpoint, and the concatenation is ambiguous (C61).
* DPoP: a claim `jwk` in the proof replaces the key that signed it, and the type is not looked at (C81); proofs can be replayed, a
  refresh may change the key, and without HTTP information the thumb print is whatever the request says (C82).
* Request objects: a client that has registered no places can refer to any URL; the algorithm is looked up as a part of the
  registered string; for an encrypted object the header of the signature is looked at (C83); an object can name another client
  (C84).  If the answer is not 200 the code raises AttributeError instead of ServiceError.
* Authentication methods: replacing one under the same id leaves the id in the index under the old acr, so that requests for that acr get the
  new method, and a KeyError after its removal (C110).
* Extra arguments work at the authorization endpoint only: the token endpoint hands over a dictionary, those of the introspection endpoint
  are looked for under "token_introspection", which is no endpoint, and the user info endpoint does not call the add-on (C111).
* The token in the login form is accepted from anybody who has keys in the provider's key jar: a client can sign one for a request of
  another client, with an authentication context class of its choice, and lead a user to submit it (C112).
* C114: `do_verified_logout` posts the logout tokens one after the other and lets an exception of the HTTP client pass, so that the clients after
  one that cannot be reached are not told, although their sessions have been removed by then. `do_front_channel_logout_iframe` puts the
  registered URI between quotes as it is, and the page of the example applications marks the frames as safe: a URI with a quote in it
  puts markup of the client's own on the provider's page.
* Session cookies: the one of the token endpoint carries the session key in the clear where the encrypted session id is expected, and an
  authorization request with it fails (C86); so does one with the cookie of a removed session, since only `Revoked` is caught, which
  nothing raises (C85).  The id of a grant is not stored, so that after a restart the cookie of the token endpoint names a grant
  that does not exist (C87).
* Answers of the authorization endpoint: with prompt "none" and response mode "query" or "fragment", the error "login_required" goes to
  the empty URL; a failure after authentication is reported with `request["response_mode"]`, so that without a response mode a KeyError
  is raised and the client hears nothing; an answer in a form names no issuer and has no session state (C92).  Without a response mode,
  `login_required` for the response type "none" goes to the fragment, an answer for the same response type to the query.  The error "Grant not
  usable" has no `return_uri`, so that it cannot be sent.  (World.lean takes a response as delivered also where session management
  finds that the authentication has timed out, which makes the theorems about deliveries stronger, not weaker.)
* Signed tokens: where the usage rules give access tokens no life time (the default configuration has none), the client is told 1800
  seconds while the token says 3600; a life time of 0 is read as "no end", after which `info` looks for an `exp` that is not there, so that the token is
  never accepted (C93).
* Metadata: a second provider made from the same configuration object publishes the first one's URLs, since the capabilities in it are
  filled in and then go before what the endpoints say (C96); the ID token handler writes over configured algorithms, and what is published
  depends on the order of the endpoints, since the endpoint for pushed requests inherits what an OAuth2 authorization endpoint publishes
  (C97); scopes listed in the configuration are published whether they are allowed or not; the add-on for custom scopes replaces a configured mapping of scopes, whose claims stay
  published; the DPoP algorithms in the metadata are not
  looked at when a proof comes in (C98).
* Methods of client authentication: the token endpoint without `client_authn_method` publishes no method and lets everybody pass client
  authentication; methods named in the capabilities are published, those of the endpoint are taken (C99); the method that a client
  registers for the token endpoint is never looked at again (C100).
* **Grant types.** A client's registered grant types are stored as "grant_types"; the token endpoint looks for
  "grant_types_supported" in the record (oauth2/token.py:429-434), so a client that registered "authorization_code" only has its
  refresh tokens answered.  Without capabilities the metadata name "authorization_code" and "implicit", and the token endpoint
  answers refresh tokens and no implicit grant (C101).
* Configuration: `allowed_scopes`, `scopes_handler`, `template_handler`, `verify_ssl`, `sso_ttl` and others that the provider reads from a plain
  dictionary are dropped by the configuration class; an empty setting is replaced by the default, which for `httpc_params` switches the
  verification of certificates off; domain and port are not put into the default issuer (C102).  With the default grant
  configuration refresh tokens have a life time of -1, so that they are issued and never accepted (C103).
* Answers: an error that comes with a content type is answered without a body; at the authorization and logout endpoints an error without a
  URI to return to is a KeyError; headers with another spelling of "Content-type" lead to two types; WebFinger answers are not marked (C104).
* The end session endpoint reads `auth_info["client_id"]` and `auth_info["token"]` after client authentication (oidc/session.py:374-375): all methods
  but `bearer_body` with a client id lead to a KeyError, also the method "none"; the access token of `bearer_body` is not verified (C105).
* Logout: the post logout URI is checked for the client the request names (C62); clients without a logout URI or ID token stay logged
  in, and an unregistered client blocks everything (C63); any JWT of the provider with a `sid` is a logout confirmation (C73).

Noticed while modelling, without a theorem of its own: the time of a login through the page is when the page was made, and the form does not
expire, so that the authentication of a user who takes more than an hour to log in has ended when it begins; the top-level setting `sub_func` is kept by the configuration class but read from
`session_params`; `get_http_params` drops a `verify` that is the path of a CA file, after which endpoint.py:165 looks for it in vain; the
life time 600 of codes in the default `token_handler_args` is not what ends a code (the grant's rules do); the provider configuration endpoint looks up its endpoints under names that none
of them has, and would publish paths instead of URLs if it found one (oidc/provider_config.py:22-34); `do_endpoints` fails if the
capabilities are `None`, which `get_capabilities` allows for (server.py:27, 41-43); the default configuration names the lifetime of client secrets
`client_secret_expiration_time` (configure.py:324), the code looks for `client_secret_expires_in`; an entry `True` or `None` for a
grant type, which the error message of `configure_grant_types` allows, raises an AttributeError (oauth2/token.py:397-399); uses of access tokens at the userinfo and introspection endpoints are not
registered, so that `max_usage` has no effect there; a post logout redirect URI with a query gets a second `?`; a failed ID token
signature leaves the code reusable; the OAuth2 token endpoint does not revoke on code replay; the key `iss:jti` of the replay table is
ambiguous; a registered custom-scheme URI with a query never matches at authorization; a user claim called `jti` replaces the
token's own identifier in a JWT, after which two tokens of a deterministic signature can be the same string; a grant id that ended in
white space would not survive the padding of session ids (uuids never do).

## 6. Axioms each theorem depends on

@@AXIOMS@@

## 7. Wrong programs

`seeded/LOG.jsonl` records edits of the model that a realistic bug would make, one JSON object per line: the definition, the edit, the
claim that becomes false, the theorems that no longer prove, and the theorems that were tightened because they still did. A theorem
counts as failed if its proof, or the proof of a lemma it rests on, is rejected after the edit.

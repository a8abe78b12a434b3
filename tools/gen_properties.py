#!/usr/bin/env python3
"""Writes /verif/properties.jsonl from the table below (ids are assigned in order)."""
import json, os
P = []
def p(title, statement, quantifier, why, *anchors):
    P.append(dict(id="C%02d" % (len(P) + 1), title=title, statement=statement,
                  quantifier=quantifier, why_tests_cant=why, anchors=list(anchors)))

U = "src/oidcop/"
# ---------------------------------------------------------------- encodings
p("Length-value packing round trip",
  "lv_unpack(lv_pack(v1,...,vn)) returns exactly [v1,...,vn] for every list of strings, whatever separators, digits or colons the values contain, provided the last value does not end in white space; when it does, only that trailing white space is lost. No input makes lv_unpack loop: it returns a list or raises ValueError.",
  "all lists of strings; all input strings for lv_unpack",
  "The values may contain digits, colons and white space in any position; the interesting cases are adversarial strings of any length.",
  U+"util.py:lv_pack", U+"util.py:lv_unpack")
p("Session key round trip",
  "unpack_session_key(session_key(u,c,g)) gives back [u,c,g]; it does so exactly when no component contains the divider ';;' and no component but the last ends in ';'.",
  "all lists of identifier strings",
  "Ids come from users, clients and uuid; a test only tries benign ones.",
  U+"session/database.py:Database.session_key", U+"session/database.py:Database.unpack_session_key", U+"constant.py:DIVIDER")
p("Encrypted session id round trip",
  "decrypt_session_id(encrypted_session_id(u,c,g)) returns [u,c,g] for every user, client and grant id that is free of ';' and does not end in white space, whatever random string was drawn; a string that does not decrypt gives ValueError and never a path.",
  "all identifiers, all random prefixes, all strings given to decrypt_session_id",
  "The random prefix is unpredictable and the padding depends on byte lengths.",
  U+"session/database.py:Database.encrypted_session_id", U+"session/database.py:Database.decrypt_session_id", U+"util.py:Crypt")
p("Distinct sessions never share a storage key",
  "Two different (user), (user,client) or (user,client,grant) paths are never stored under the same key, so no write for one session can replace the record of another.",
  "all pairs of paths",
  "Collisions only show for adversarial identifiers; tests use 'diana' and 'client_1'.",
  U+"session/database.py:Database.session_key", U+"session/database.py:Database.set")
# ---------------------------------------------------------------- session database
p("What is stored is what is read",
  "After set(path, value), get(path) returns value, and get of every other existing path returns what it returned before.",
  "all databases reachable by set/delete, all paths and values",
  "Quantifies over every database content and pair of paths.",
  U+"session/database.py:Database.set", U+"session/database.py:Database.get")
p("Session database is consistent after every history",
  "After any sequence of create_session, add_grant, grant updates, revocations and mintings, every client listed for a user and every grant listed for a client resolves with get, and every stored grant is listed by its client and every client by its user.",
  "all histories of session manager operations over all identifiers",
  "Unbounded histories.",
  U+"session/manager.py:SessionManager.create_session", U+"session/manager.py:SessionManager.create_grant", U+"session/database.py:Database.set")
p("Removing a session removes exactly that session",
  "After remove_session(sid) the grant can no longer be read, and every other session of the same or any other user reads as before.",
  "all databases, all session ids",
  "Frame conditions over arbitrary other users and clients; bare keys clash only for special names.",
  U+"session/database.py:Database.delete", U+"session/manager.py:SessionManager.remove_session")
p("Deleting a user or a client session leaves nothing behind",
  "After delete([user]) or delete([user, client]) no record of that user, or of that user's session with that client, remains stored.",
  "all databases",
  "Depends on every possible number of clients and grants below the deleted node.",
  U+"session/database.py:Database.delete")
p("Revoking a client session revokes all its grants and nothing else",
  "After revoke_client_session(sid) the client session is marked revoked, each of its grants is revoked, and the grants and sessions of other clients and users are unchanged.",
  "all databases, all session ids",
  "Any number of grants, and a frame condition over all other sessions.",
  U+"session/manager.py:SessionManager.revoke_client_session")
# ---------------------------------------------------------------- tokens
p("When a token or grant is active",
  "is_active(now) is true exactly when the item is not revoked, has been used fewer times than max_usage (if set), now is not before not_before (if set) and now is not after expires_at (if set); 0 means the current clock.",
  "all items, all instants",
  "Boundary instants and every combination of optional limits.",
  U+"session/token.py:Item.is_active", U+"session/token.py:Item.max_usage_reached")
p("An inactive token never comes back to life",
  "A token that is revoked, used up or past its expiry is inactive in every later state, whatever further requests are served.",
  "all histories of endpoint and session manager operations",
  "Histories are unbounded.",
  U+"session/token.py:Item.is_active", U+"session/grant.py:Grant.revoke_token", U+"oidc/token.py")
p("Tokens are only minted from live authority",
  "mint_token creates a token only if the grant is active and, when it is based on another token, that token is active and is allowed to mint that class; otherwise nothing is added to the grant. The token created carries the parent's value, the right class and is appended to the issued tokens.",
  "all grants, tokens, classes and instants",
  "Every combination of usage rules, expiry and class.",
  U+"session/grant.py:Grant.mint_token", U+"session/token.py:SessionToken.supports_minting")
p("Authorization codes are single use whatever the configuration says",
  "Every minted authorization code has max_usage 1, even if the usage rules given set another value, so one registered usage makes it inactive for ever.",
  "all usage rules configurations",
  "All configurations.",
  U+"session/token.py:AuthorizationCode.set_defaults")
p("A code yields at most one token response",
  "For every history of token endpoint calls, in which parsing and processing of concurrent requests interleave arbitrarily and any minting may fail part way, at most one successful token response is given for one authorization code.",
  "all schedules of parse_request and process_request calls, all codes, all failures",
  "Needs all interleavings and failure points.",
  U+"oauth2/token.py:AccessTokenHelper", U+"oidc/token.py:AccessTokenHelper", U+"oauth2/token.py:Token.process_request")
p("A code yields at most one token response even if processing itself interleaves",
  "The at-most-one guarantee also holds when two process_request calls for the same code run concurrently in threads.",
  "all schedules at the granularity of minting and usage registration",
  "Race window; not reproducible by tests.",
  U+"oauth2/token.py:AccessTokenHelper.process_request")
p("Replaying a used code kills everything derived from it",
  "When a used code is presented again at the OIDC token endpoint, invalid_grant is returned and every token minted directly or indirectly from that code is revoked, stays revoked in every later state, and tokens not derived from the code are untouched.",
  "all grants with any derivation tree, all later histories",
  "Derivation trees of any depth and unbounded later histories.",
  U+"oidc/token.py:AccessTokenHelper.post_parse_request", U+"session/grant.py:Grant.revoke_token")
p("Recursive revocation is the transitive closure",
  "revoke_token(value, recursive=True) revokes exactly the token and all tokens derived from it through based_on, revoke_token(value, recursive=False) exactly the token; the call terminates on every grant that minting can produce.",
  "all reachable grants, all values",
  "Trees of any shape and depth; termination.",
  U+"session/grant.py:Grant.revoke_token", U+"session/manager.py:SessionManager.revoke_token", U+"session/manager.py:SessionManager._revoke_dependent")
p("The ancestry of issued tokens is well founded",
  "In every reachable grant each token is based on nothing or on a token that was issued earlier in the same grant, token values are pairwise distinct across all grants, and hence looking up the scope of a token terminates.",
  "all histories",
  "Inductive invariant over all histories.",
  U+"session/grant.py:Grant.find_scope", U+"session/grant.py:Grant.mint_token")
p("Tokens never exceed the granted scope",
  "In every reachable state the scope of every code, access and refresh token is contained in the scope of its grant.",
  "all histories of authorization, code redemption and refresh",
  "Chains of refreshes of any length.",
  U+"session/grant.py:Grant.find_scope", U+"oauth2/token.py:RefreshTokenHelper", U+"oidc/token.py:RefreshTokenHelper")
p("A narrowed refresh token cannot be widened",
  "If a refresh token was issued with a reduced scope, no later refresh with that token yields a scope outside it.",
  "all refresh chains",
  "Chains of any length with any scope selection.",
  U+"oidc/token.py:RefreshTokenHelper.post_parse_request", U+"session/grant.py:Grant.find_scope")
p("Refresh requests outside the original scope are refused",
  "A refresh request is accepted by parse_request only if the presented value is an active refresh token of an existing grant and the requested scope, if any, is contained in the scope its parent carried.",
  "all requests and states",
  "All inputs.",
  U+"oauth2/token.py:RefreshTokenHelper.post_parse_request", U+"oidc/token.py:RefreshTokenHelper.post_parse_request")
p("Refresh token rotation",
  "When revoke_refresh_on_issue is in force for the client (its own setting wins over the endpoint's), a refresh token that produced a successful response is inactive afterwards and can never produce another one.",
  "all states, all later histories",
  "Unbounded histories, precedence of two settings.",
  U+"oauth2/token.py:RefreshTokenHelper.process_request", U+"oidc/token.py:RefreshTokenHelper.process_request")
p("Life time of minted tokens",
  "A token minted at time t with configured expires_in n is active from t up to and including t+n and inactive from t+n+1 on; with no rules the default of 1800 s applies. In particular a token just handed out is usable.",
  "all instants and all configured life times",
  "All configurations including the shipped default.",
  U+"oauth2/token.py:TokenEndpointHelper._mint_token", U+"configure.py:OP_DEFAULT_CONFIG")
p("A revoked grant mints nothing",
  "Once a grant is revoked no token endpoint or authorization endpoint call ever adds a token to it or answers with a token from it.",
  "all later histories",
  "Unbounded histories.",
  U+"session/grant.py:Grant.mint_token", U+"oauth2/authorization.py:Authorization.post_authentication")
p("Logout and grant revocation cut off access tokens",
  "After revoke_grant or revoke_client_session, access tokens of the grant are refused by userinfo and reported inactive by introspection.",
  "all states and tokens",
  "All states.",
  U+"oidc/userinfo.py:UserInfo.process_request", U+"oauth2/introspection.py:Introspection.process_request", U+"session/manager.py:SessionManager.revoke_client_session")
p("Codes and refresh tokens are bound to their client",
  "A successful token response is only given to the client that the code or refresh token was issued to.",
  "all requests, clients and histories",
  "Any client may present any string.",
  U+"oauth2/token.py:AccessTokenHelper.process_request", U+"oauth2/token.py:RefreshTokenHelper.process_request")
p("Codes are bound to the redirect_uri",
  "If the authorization request carried redirect_uri, a token response is given only if the token request carries the identical redirect_uri.",
  "all requests and grants",
  "All inputs.",
  U+"oauth2/token.py:AccessTokenHelper.process_request", U+"oidc/token.py:AccessTokenHelper.process_request")
p("PKCE binds the code to the verifier",
  "If the authorization request carried a code_challenge then the token request passes only with a code_verifier whose transformation under the recorded method equals the challenge; without a method 'plain' is used; a client for which PKCE is essential gets no code without a challenge; methods outside the configured list are refused.",
  "all requests, configurations and transformations",
  "All inputs and configurations.",
  U+"oidc/add_on/pkce.py:post_authn_parse", U+"oidc/add_on/pkce.py:post_token_parse", U+"oidc/add_on/pkce.py:verify_code_challenge")
p("Token strings are only accepted as the class they were minted as",
  "TokenHandler.info on a minted token returns the session id and the class it was minted with, in whatever order handlers are tried and even if handlers share keys; a string minted by nobody is refused with UnknownToken.",
  "all handler configurations, all tokens, all strings",
  "All configurations of handlers.",
  U+"token/handler.py:TokenHandler", U+"token/__init__.py:DefaultToken", U+"token/jwt_token.py:JWTToken", U+"token/id_token.py:IDToken")
# ---------------------------------------------------------------- authorization endpoint
p("Redirect URIs are matched exactly",
  "An authorization request passes redirect URI validation only if, after percent-decoding, it has no fragment and its base and the set of its query parameters equal those of a registered redirect URI.",
  "all request URIs and all registered lists",
  "Adversarial URIs.",
  U+"oauth2/authorization.py:verify_uri", U+"oauth2/authorization.py:get_uri")
p("Every registered redirect URI is usable",
  "A request with a redirect URI identical to one of the registered ones passes validation.",
  "all registered lists",
  "Depends on the other entries of the list.",
  U+"oauth2/authorization.py:verify_uri")
p("Response types are restricted to the registered ones",
  "A response_type is accepted exactly if, as a set, it equals one of the client's registered response types ({code} if none is registered).",
  "all requests and registrations",
  "All combinations.",
  U+"oauth2/authorization.py:Authorization.verify_response_type")
p("The authorization response contains what was asked for",
  "A successful authorization response contains a code iff 'code' was requested, an access token iff 'token' was requested, an id_token iff 'id_token' was requested; anything else in response_type gives unsupported_response_type; and a response with token or id_token is never put in the query part of the redirect URI.",
  "all requests",
  "All response type and response mode combinations.",
  U+"oauth2/authorization.py:Authorization.create_authn_response", U+"oauth2/authorization.py:Authorization.response_mode")
p("A pushed authorization request is used at most once",
  "For every history of pushes and authorization requests a request_uri resolves at most once, and only to the request that was pushed under it. Until it has been resolved, it has the same outcome for the client that pushed the request as sending that request would have.",
  "all histories",
  "Unbounded histories.",
  U+"oauth2/pushed_authorization.py:PushedAuthorization.process_request", U+"oauth2/authorization.py:Authorization._do_request_uri")
p("A pushed authorization request is bound to its client and life time",
  "A request_uri is honoured only for the client that pushed the request and only within the advertised expires_in.",
  "all histories",
  "All histories and clocks.",
  U+"oauth2/pushed_authorization.py:PushedAuthorization.process_request", U+"oauth2/authorization.py:Authorization._do_request_uri")
p("Scopes outside the allowed set are not granted",
  "Filtering returns exactly the requested scopes allowed for the client (its own list, else the keys of its scope mapping, else the server's) in request order; with deny_unknown_scopes any other scope makes the request fail; tokens never carry a scope the client is not allowed.",
  "all scope lists, client and server configurations",
  "All configurations.",
  U+"scopes.py:Scopes", U+"oauth2/authorization.py:Authorization._post_parse_request", U+"oauth2/authorization.py:check_unknown_scopes_policy")
p("prompt=none never shows a login page",
  "With prompt=none, setup_auth never answers with an authentication function: it either uses an existing session or answers login_required.",
  "all requests and sessions",
  "All states of the earlier session.",
  U+"oauth2/authorization.py:Authorization.setup_auth")
p("An existing login is only reused when it is still good",
  "setup_auth lets a request through without authentication only if the cookie identity belongs to an active grant of the same client whose authentication event is valid and, if a user was requested, is that user, and prompt=login was not asked for.",
  "all requests, cookies and sessions",
  "All combinations.",
  U+"oauth2/authorization.py:Authorization.setup_auth")
p("max_age is respected",
  "A cookie login older than max_age seconds is not accepted, for every max_age the client asks for, including 0.",
  "all time stamps, clocks and max_age values",
  "Boundary values.",
  U+"user_authn/user.py:UserAuthnMethod.authenticated_as", U+"oauth2/authorization.py:max_age")
p("Requested authentication context is honoured",
  "For a request that asks for authentication contexts the authorization endpoint picks a method whose acr is among them, in the order of preference, or fails; the session it answers with comes from such an authentication. If the request asks for none, a hint decides, and otherwise the first method is used.",
  "all brokers and requests",
  "All broker contents.",
  U+"user_authn/authn_context.py:pick_auth", U+"user_authn/authn_context.py:AuthnBroker", U+"oauth2/authorization.py:Authorization.setup_auth")
# ---------------------------------------------------------------- claims
p("Claim matching follows OIDC 5.5.1",
  "claims_match(value, spec) is false for a missing value, true for a null spec or one with only 'essential', and otherwise true exactly if value equals 'value' or is among 'values'.",
  "all values and specifications",
  "All inputs.",
  U+"session/claims.py:claims_match")
p("Only permitted claims are released",
  "get_user_claims returns only claims named in the restriction whose value matches the specification, with the value from the user database.",
  "all user databases and restrictions",
  "All inputs.",
  U+"session/claims.py:ClaimsInterface.get_user_claims", U+"user_info/__init__.py:UserInfo")
p("Sources of claims",
  "Every claim in the computed release specification comes from the base claims, the always-add claims, a scope the client is allowed and requested, or the claims parameter of the request; the request's specification wins over the others.",
  "all configurations and requests",
  "All configurations.",
  U+"session/claims.py:ClaimsInterface.get_claims_from_request", U+"scopes.py:convert_scopes2claims")
p("Computing claims does not change the client's configuration",
  "Evaluating which claims to release leaves the client database unchanged, so the answer to one request does not depend on earlier requests.",
  "all histories of claim evaluations",
  "History dependence.",
  U+"session/claims.py:ClaimsInterface._client_claims")
p("Userinfo is released only for a live access token",
  "userinfo answers with claims only if the presented value is an active access token of an existing grant whose authentication event is still valid; the answer's sub is the grant's subject and every other claim was allowed by the grant.",
  "all requests and states",
  "All states and token strings.",
  U+"oidc/userinfo.py:UserInfo.process_request")
p("Introspection tells the truth",
  "introspection answers active=true exactly for strings that are active access or refresh tokens of an existing grant (and of an allowed kind), and answers active=false, without an exception, for every other string.",
  "all strings and states",
  "All strings.",
  U+"oauth2/introspection.py:Introspection.process_request")
p("ID Token protocol claims cannot be overridden by user claims",
  "Whatever the user database contains, sub, nonce, acr, auth_time, c_hash and at_hash in an issued ID Token are the ones computed by the provider, and iss, aud and exp are not taken from user data.",
  "all user claims",
  "All user databases.",
  U+"token/id_token.py:IDToken.payload", U+"token/id_token.py:IDToken.sign_encrypt")
p("Access token protocol claims cannot be overridden by user claims",
  "Whatever the user database contains, sub, client_id, scope, aud, sid and token_class in a JWT access token are those of the grant.",
  "all user claims",
  "All user databases.",
  U+"session/grant.py:Grant.payload_arguments", U+"token/jwt_token.py:JWTToken.__call__")
# ---------------------------------------------------------------- clients
p("Client authentication soundness",
  "If verify_client returns a client authenticated with client_secret_basic or client_secret_post then the request carried exactly that client's secret, the client is registered and its secret has not expired; if the endpoint does not allow unauthenticated access, a request with a wrong secret never yields a client.",
  "all requests, client databases and method lists",
  "All requests.",
  U+"client_authn.py:verify_client", U+"client_authn.py:ClientSecretBasic", U+"client_authn.py:ClientSecretPost", U+"client_authn.py:valid_client_info")
p("A client assertion with a jti is accepted once",
  "For every history of JWT client authentications, an assertion with a given issuer and jti is accepted at most once, and only with an audience naming this server and the right kind of key. As long as issuers have no colon, a good assertion whose identifier its issuer has not used before is accepted, whatever else was used.",
  "all histories",
  "Unbounded histories.",
  U+"client_authn.py:JWSAuthnMethod.verify")
p("Client configuration is readable only with its own registration token",
  "The registration read endpoint returns a client's record only for the registration access token that was issued to that client.",
  "all tokens and client ids",
  "All pairs.",
  U+"oidc/read_registration.py:RegistrationRead", U+"client_authn.py:verify_client")
p("Registration never touches another client",
  "A dynamic registration always uses a client_id that was not in the database and leaves every other client's record as it was.",
  "all histories, all outcomes of the random generator",
  "Depends on random collisions.",
  U+"oidc/registration.py:random_client_id", U+"oidc/registration.py:Registration.client_registration_setup")
p("A refused registration leaves no client behind",
  "If registration answers with an error the client database is as before.",
  "all requests",
  "All error paths.",
  U+"oidc/registration.py:Registration.client_registration_setup")
p("A client cannot register server-side policy for itself",
  "A registration request cannot set parameters that decide the client's privileges or credentials (client_secret, allowed_scopes, token_usage_rules, pkce_essential, ...).",
  "all requests",
  "All parameter names.",
  U+"oidc/registration.py:Registration.do_client_registration")
p("Registered redirect URIs obey the application type rules",
  "verify_redirect_uris accepts for web clients only https URIs unless the client is code-only, for native clients only custom schemes or http on localhost, never a URI with a fragment, and keeps base and query of each accepted URI in order.",
  "all request URI lists",
  "All URI lists.",
  U+"oidc/registration.py:Registration.verify_redirect_uris")
p("Registered preferences stay within the provider's capabilities",
  "A registration is accepted only if each preference it announces that has a counterpart in the provider's metadata is supported by the provider, and so the records of all dynamically registered clients stay within the provider's capabilities.",
  "all requests and provider metadata",
  "All combinations.",
  U+"oidc/registration.py:Registration.match_client_request", U+"oidc/registration.py:Registration.match_client_request")
# ---------------------------------------------------------------- cookies
p("Cookie round trip",
  "parse_cookie(make_cookie_content(value, type)) returns the value, type and time stamp that went in, for signed, encrypted and signed+encrypted cookies.",
  "all payloads, types and time stamps",
  "State values chosen by clients end up in the payload.",
  U+"cookie_handler.py:CookieHandler")
p("Cookies cannot be altered",
  "A cookie that the server accepts carries a payload and a time stamp that the server put together in one cookie.",
  "all forged cookie strings",
  "Adversarial inputs.",
  U+"cookie_handler.py:CookieHandler._ver_dec_content", U+"cookie_handler.py:CookieHandler._sign_enc_payload")
# ---------------------------------------------------------------- configuration and misc
p("Usage rules merging",
  "The usage rules for a client are, per token class and per rule, the client's own setting if present, else the server's; an empty client entry resets the class; classes only the client mentions are added.",
  "all configurations",
  "All nested configurations.",
  U+"authz/__init__.py:AuthzHandling.usage_rules")
p("Asking for usage rules does not change the defaults",
  "get_usage_rules for one grant never changes what it returns for another.",
  "all histories of calls",
  "History dependence through shared dictionaries.",
  U+"session/grant.py:get_usage_rules")
p("Subject identifiers",
  "The public subject depends only on user and salt; a client registered for pairwise subjects gets a subject that differs between sectors and between users.",
  "all users, sectors and salts",
  "All inputs.",
  U+"session/manager.py:pairwise_id", U+"session/manager.py:public_id", U+"session/manager.py:SessionManager.create_grant", U+"oauth2/authorization.py:Authorization.create_session")
p("RP initiated logout only redirects to registered URIs",
  "The end session endpoint only accepts a post_logout_redirect_uri that is registered for the client whose session ends and only with an id_token_hint for the session's subject.",
  "all requests and sessions",
  "All requests.",
  U+"oidc/session.py:Session.process_request")
p("Log out everywhere",
  "logout_all_clients revokes the user's sessions with all clients.",
  "all users, clients and session databases",
  "Any number of clients in any configuration.",
  U+"oidc/session.py:Session.logout_all_clients")
p("form_post responses do not allow markup injection",
  "The HTML page of a form_post response contains the response parameters only as escaped attribute values.",
  "all parameter values",
  "Adversarial values.",
  U+"oauth2/authorization.py:inputs", U+"oauth2/authorization.py:Authorization.response_mode")
p("Published algorithms are permitted ones",
  "construct_endpoint_info only publishes algorithm values that are permitted, or fails, and the signing algorithm order is total with RS first.",
  "all proposals",
  "All lists.",
  U+"construct.py:construct_endpoint_info", U+"construct.py:sort_sign_alg")
p("Users are isolated from each other",
  "No token endpoint, userinfo, introspection, revocation or logout operation for one user's session changes any grant of another user.",
  "all histories",
  "Unbounded histories and arbitrary users.",
  U+"session/manager.py", U+"oidc/token.py", U+"oidc/session.py")
p("The authorization response only goes to a registered redirect URI",
  "The URI an authorization response is sent to has the base and the query parameters of a redirect URI registered for the client.",
  "all requests and registrations",
  "All URIs and encodings.",
  U+"oauth2/authorization.py:get_uri", U+"oauth2/authorization.py:verify_uri")
p("Grants go back to vetted requests and authenticated users",
  "After any sequence of authorization requests (plain, pushed or by reference), logins, token requests, revocations and logouts, every grant, and so every token, belongs to a request that was checked against the registration of the client it names (redirect URI, response type, scope policy, PKCE) and to a user who authenticated on the login page for a request of that same client.",
  "all histories of HTTP requests and logins, all providers and client registrations",
  "The checks are spread over several endpoints and stores and the histories are unbounded.",
  U+"oauth2/authorization.py:Authorization.process_request", U+"oauth2/authorization.py:Authorization.setup_auth", U+"oauth2/pushed_authorization.py", U+"oidc/add_on/pkce.py", U+"endpoint.py:Endpoint.parse_request")

p("A client's own by_scope setting overrides the server's",
  "Where clients may have their own settings, whether a client's scopes are turned into claims at a release point is decided by the client's add_claims/by_scope entry for that point, if it has one.",
  "all configurations, clients and release points",
  "All combinations of settings.",
  U+"session/claims.py:ClaimsInterface._client_claims", "docs/source/contents/conf.rst")

p("Registration can be read back",
  "After a successful registration, and whatever other registrations follow, the registration read endpoint answers for the new client with exactly the metadata the registration was answered with.",
  "all requests and all series of later registrations",
  "Unbounded series of registrations.",
  U+"oidc/registration.py:Registration.client_registration_setup", U+"oidc/read_registration.py:RegistrationRead.process_request", U+"oidc/registration.py:comb_uri")

p("Session state is bound to client, origin and browser state",
  "compute_session_state gives the same value only for the same client, the same origin of the redirect URI, the same session management cookie and the same salt.",
  "all clients, origins, cookie values and salts without hash collisions",
  "The parts are joined to one string; all ways of shifting characters between them have to be excluded.",
  U+"cookie_handler.py:compute_session_state")

p("A token leads back to the session it was issued in",
  "After any history of logins, authorizations, token requests, revocations and session removals, looking up a session by the value of a token that some session holds gives that very session - its user, client and grant - or fails because the token handler refuses the token; it never gives another user's or client's session.",
  "all histories, all tokens of all sessions",
  "Unbounded histories; the session id travels inside the token while the session database changes.",
  U+"session/manager.py:SessionManager.get_session_info_by_token", U+"session/grant.py:Grant.mint_token", U+"token/handler.py:TokenHandler.info")

p("Only the end session endpoint's own confirmation ends a session",
  "The page behind the logout confirmation ends a session only when it is given a confirmation that the end session endpoint made for that session; no other token of the provider logs a user out.",
  "all texts presented as confirmation, all sessions",
  "All signed and unsigned texts, including the other tokens the provider signs.",
  U+"oidc/session.py:Session.unpack_signed_jwt", U+"oidc/session.py:Session.do_verified_logout", "example/flask_op/views.py:rp_logout")

p("Back channel logout tokens are for the client they are sent to",
  "In a log out everywhere every logout token is sent to the back channel logout URI of a client the user has a session with, names that client's record as audience and the provider as issuer, and carries the session id of the user's session with that client.",
  "all histories, users, clients and client records",
  "Any number of clients, sessions and histories.",
  U+"oidc/session.py:Session.do_back_channel_logout", U+"oidc/session.py:Session.logout_all_clients")

p("Tokens are never repeated and name their session",
  "Every authorization code, access token, refresh token and ID token that the configured token handlers make is a string that no other token has, and whichever handler accepts it finds in it the session it was made for, as long as random strings do not repeat and no claim of a user is named jti, token_class or ttype.",
  "all configurations of encrypted and signed tokens, all sessions, all histories of token requests",
  "Unboundedly many tokens; two tokens with one value would only show up as a clash between sessions.",
  U+"token/__init__.py:DefaultToken", U+"token/jwt_token.py:JWTToken", U+"token/id_token.py:IDToken", U+"token/handler.py:TokenHandler.info", U+"session/grant.py:Grant.mint_token")

p("A token is exchanged at most max_usage times",
  "A code or refresh token whose usage rules have max_usage m gets at most m successful token responses, however requests are interleaved, retried or failed; tokens carry the max_usage that the grant's rules have for their class, and a refresh token that comes with a refresh the one of its predecessor.",
  "all histories, all interleavings of parsing and processing, all m",
  "Unbounded histories and interleavings.",
  U+"session/token.py:Item.max_usage_reached", U+"session/token.py:SessionToken.register_usage", U+"oauth2/token.py:RefreshTokenHelper.process_request")

p("Whoever gives a password is logged in as the owner of that password",
  "With password authentication the authorization endpoint starts or continues a session only if the request carries the name and password of a user, and the session is that user's. Whoever gives the name and the password of a user gets a session, whatever the password is, unless the request asks for a login page or is about another user.",
  "all headers, password tables, cookies, requests and states",
  "All combinations of headers and cookies.",
  U+"user_authn/user.py:BasicAuthn.authenticated_as", U+"user_authn/user.py:UserPassJinja2.verify", U+"user_authn/user.py:UserAuthnMethod.cookie_info", U+"oauth2/authorization.py:Authorization.setup_auth")

p("Refresh tokens only when asked for and allowed",
  "A token response has a refresh token only if one was asked for - by the server's issue_refresh or, at the OpenID Connect endpoint when the server says nothing, by the scope offline_access - and the presented code or refresh token may mint refresh tokens, and, for a code, the refresh_token grant type is open to the client. A client with a list of grant types gets responses only for those.",
  "all histories of requests, all clients, all usage rules",
  "Unbounded histories; grants, usage rules and client configuration combine freely.",
  U+"oidc/token.py:AccessTokenHelper.process_request", U+"oidc/token.py:RefreshTokenHelper.process_request", U+"oauth2/token.py:AccessTokenHelper.process_request", U+"oauth2/token.py:Token._post_parse_request")

p("The answer to a registration tells what was registered",
  "The answer to a registration has the redirect URIs of the request, one by one with base and query, every member of the request that registration does not look into, unchanged, and the secret drawn for the client together with its end, which are the ones the provider keeps.",
  "all configurations, requests, draws and states of the client database",
  "The answer is put together from a record with split URIs; all requests have to be considered.",
  U+"oidc/registration.py:Registration.client_registration_setup", U+"oidc/registration.py:comb_uri")

p("A login counts for its life time, and nothing prolongs it",
  "Every grant goes back to a login of its user for its client. Its authentication event says when and how that login happened and until when it counts: for the life time configured for the method, or an hour. Requests answered without a login page, grants made by them and answers of the userinfo endpoint all fall within that time, however often the session is used again.",
  "all histories of requests, logins, cookies and waiting",
  "Unbounded histories: sessions are used again and again, each time with new cookies and grants.",
  U+"authn_event.py:create_authn_event", U+"authn_event.py:AuthnEvent.is_valid", U+"oauth2/authorization.py:Authorization.create_session", U+"oauth2/authorization.py:Authorization.setup_auth", U+"oidc/userinfo.py:UserInfo.process_request")

p("A token request is bound only to a key its sender has proven to have",
  "With the DPoP add-on a token request that comes with HTTP information passes only if it carries a DPoP proof: a JWT of type dpop+jwt, signed with the private key that belongs to the key in its header, for the URL and the method of the request. The request is then bound to the thumb print of that key.",
  "all HTTP requests, proofs and keys",
  "All proofs an attacker can build have to be considered.",
  U+"oauth2/add_on/dpop.py:DPoPProof.verify_header", U+"oauth2/add_on/dpop.py:post_parse_request")

p("With DPoP every token response is bound to a proven key, and stays with it",
  "In every history of a provider with DPoP each token response has the type DPoP and is bound to the key its request proved possession of; a proof is good for one request, and a refresh token works only with the key its grant was bound to.",
  "all histories of requests with and without proofs",
  "Unbounded histories of exchanges and refreshes.",
  U+"oauth2/add_on/dpop.py:post_parse_request", U+"oidc/token.py:AccessTokenHelper.process_request", U+"oidc/token.py:RefreshTokenHelper.process_request", U+"session/grant.py:Grant.payload_arguments")

p("A request object by reference comes from a registered place and is signed by the client",
  "A reference to a request object in an authorization request is followed only to a place the client has registered. The object is taken in exactly if it is signed with a key of the client and the algorithm is the one the client registered, or if it registered none, one the provider supports; an encrypted object if it is encrypted with registered algorithms.",
  "all requests, places, objects and registrations",
  "All URLs and JWTs an attacker can refer to have to be considered.",
  U+"oauth2/authorization.py:Authorization._do_request_uri", U+"oauth2/authorization.py:AllowedAlgorithms")

p("What a request object says cannot be changed by the request that refers to it",
  "An authorization request with a reference to a request object that passes has every member the object has, with the same value, for the client whose keys the object is verified with; only what the object does not say comes from the request itself.",
  "all authorization requests with a reference and all request objects",
  "The query of an authorization request can be changed by anyone, in all ways.",
  U+"oauth2/authorization.py:Authorization._do_request_uri", U+"oauth2/authorization.py:Authorization._post_parse_request", U+"oidc/authorization.py:Authorization")

p("A session that has ended stays ended",
  "Once the session of a user with a client has been revoked or removed, no cookie from before gets an answer from the authorization endpoint without a login, whatever happens next; a cookie whose session is gone is as good as no cookie.",
  "all histories before and after the end of the session, all cookies from before",
  "Unbounded histories in which new sessions of the same user and client are made.",
  U+"oauth2/authorization.py:Authorization.setup_auth", U+"session/manager.py:SessionManager.revoke_client_session", U+"session/manager.py:SessionManager.remove_session", U+"user_authn/user.py:UserAuthnMethod.cookie_info")

p("Session cookies lead back to the sessions of the users who got them",
  "Every session cookie that the authorization or the token endpoint gives out can be read by the authorization endpoint again, and leads to a session of a user with a client for which this user has logged in.",
  "all histories and all cookies given out in them",
  "Unbounded histories; two endpoints make cookies that a third one reads.",
  U+"oauth2/authorization.py:Authorization.post_authentication", U+"oauth2/token.py:Token.process_request", U+"user_authn/user.py:UserAuthnMethod.cookie_info")

p("A provider started again with its stored state goes on as if it had not stopped",
  "Stopping the provider, at any point of any history and any number of times, and starting it again with the session state it had stored makes no difference for anyone: all authorization and token requests are accepted, refused and answered as without the stops, and every user, client and grant record has the same content.",
  "all histories with stops and starts at all points, all later requests",
  "The state that was stored can be any the provider can reach, and what is lost in a stop may show only many requests later.",
  U+"session/grant.py:Grant.parameter", U+"session/grant.py:SessionToken.parameter", U+"session/info.py:SessionInfo.parameter", U+"session/database.py:Database.parameter", U+"session/manager.py:SessionManager.local_load_adjustments")

p("What goes to a client is signed and encrypted as the client asked for",
  "An ID token for a client is signed with the algorithm the client registered; if it registered none, with RS256 if the provider supports it, and else with the first algorithm the provider supports. Logout tokens are signed with the algorithm for ID tokens. User info is signed, and encrypted, exactly if the client registered it. ID tokens of a client that registered encryption are encrypted. For a client that registered itself, each algorithm is one the provider supports.",
  "all provider metadata, all client records, all series of registrations, all payloads",
  "The choice depends on all combinations of what the client registered and what the provider supports.",
  U+"token/id_token.py:get_sign_and_encrypt_algorithms", U+"token/id_token.py:IDToken.sign_encrypt", U+"oidc/userinfo.py:UserInfo.do_response", U+"oidc/session.py:Session.do_back_channel_logout", U+"session/grant.py:Grant.mint_token")

p("The token endpoint answers the client itself",
  "Every token response goes to a sender that had shown, when the request came in, to be the client: by the client's secret, which had not expired, in the header or in the body, or by an assertion of the client for this endpoint. The code or refresh token in the request had been delivered to this same client. An assertion with an identifier is good for one request only.",
  "all histories of authorization and token requests over HTTP, all headers and parameters, all client databases, all methods configured",
  "Anyone can send anything at any time, and the answer depends on what was delivered to whom, and which assertions were used, before.",
  U+"endpoint.py:Endpoint.parse_request", U+"endpoint.py:Endpoint.client_authentication", U+"client_authn.py:verify_client", U+"oauth2/token.py:Token.process_request")

p("A client's credentials work from its registration until they expire",
  "The client id and the secret in the answer to a registration authenticate the client, in the header or in the body of a request, up to the expiry time in this answer, whatever other clients register in between. After it nothing authenticates the client. No other secret does at any time. The expiry time is the time of the registration plus the lifetime the provider configured.",
  "all configurations, registration requests and states, all series of later registrations, all times, all requests",
  "Unbounded series of registrations between the registration and the use of the credentials.",
  U+"oidc/registration.py:Registration.client_registration_setup", U+"oidc/registration.py:Registration.add_client_secret", U+"client_authn.py:verify_client", U+"client_authn.py:valid_client_info")

p("The resource endpoints over HTTP answer those who are entitled",
  "The user info endpoint answers with claims only if the request has, in the authorization header or in the body, a live access token; the claims are those of the user who logged in for this token's grant, whatever client the request names, and the answer is made out to the client the token was issued to, signed and encrypted as this client asked for. A request with such a token gets this answer. The introspection endpoint tells about a token only to a sender that has shown to be a registered client.",
  "all histories of the provider, all headers and parameters, all client databases and methods configured",
  "Anyone can send any combination of header, token and client id at any time.",
  U+"oidc/userinfo.py:UserInfo.parse_request", U+"oidc/userinfo.py:UserInfo.process_request", U+"oidc/userinfo.py:UserInfo.do_response", U+"oauth2/introspection.py:Introspection.process_request", U+"endpoint.py:Endpoint.client_authentication")

p("What the authorization endpoint decides is told to the client",
  "When the authorization endpoint has decided about a request that passed vetting, the client is told: the answer goes to a redirect URI registered for the client, in the place the request asks for (query, fragment or form), with the state of the request, with every member of the response or with the error; an answer that tells an error has no code and no token. The answer names the provider and the client. Where a login would be needed that the request does not allow, the client is told so; where something fails, it is told that.",
  "all requests, response types and modes, all states of the provider, all cookies, with and without session management",
  "The answer is put together in five functions that pass dictionaries with optional members to each other; the combinations of outcome, response mode and prompt are many.",
  U+"oauth2/authorization.py:Authorization.process_request", U+"oauth2/authorization.py:Authorization.authz_part2", U+"oauth2/authorization.py:Authorization.post_authentication", U+"oauth2/authorization.py:Authorization.response_mode", U+"oauth2/authorization.py:Authorization.error_by_response_mode", U+"endpoint.py:Endpoint.do_response")

p("A signed token ends when the client is told it does",
  "A signed token says itself when it was made and when it ends: its end is the time it was handed out plus the lifetime that the usage rules of the grant give to its class. The client is told this lifetime, and the provider accepts the token up to this time and not after it, unless it is revoked or used up. Where the rules give no lifetime, the end is that of the handler's configuration.",
  "all configurations of token handlers, all histories of the provider, all later operations, all times",
  "The end is computed at three places, from the usage rules, from the handler's configuration and from the token object, and is checked at two others.",
  U+"token/jwt_token.py:JWTToken.__call__", U+"token/jwt_token.py:JWTToken.info", U+"session/grant.py:Grant.mint_token", U+"oauth2/token.py:TokenEndpointHelper._mint_token", U+"configure.py:OP_DEFAULT_CONFIG")

p("A live code or refresh token is honoured",
  "A code that is neither used, revoked nor expired, presented by the client it was issued to with the redirect URI of the authorization request, is exchanged for an access token that the provider recognises, with the scope of the grant. A refresh token that is neither used up, revoked nor expired, presented by its client, gives such an access token, with the scope that was asked for, or, if none was, with that of the token it comes from. A refresh token and an ID token come along exactly when they are asked for and the rules allow it. Only a grant that is no longer active, or a failure of the token handlers, can prevent this.",
  "all histories before the request, all configurations, all live codes and refresh tokens, all requests with them",
  "Some refusal or exception may depend on what has happened in the history; a test only shows that one history does not lead to it.",
  U+"oauth2/token.py:Token.process_request", U+"oidc/token.py:AccessTokenHelper.process_request", U+"oidc/token.py:RefreshTokenHelper.process_request", U+"session/grant.py:Grant.mint_token")

p("However long the chain of refreshes, replay of the code ends every token in it",
  "When a used code is presented again, every token that comes from it is revoked, however many refreshes there have been.",
  "all lengths of chains of refresh tokens, all limits of the interpreter's stack",
  "Revocation goes down the chain one call per link; the length of the chain is not bounded, the stack of the interpreter is.",
  U+"session/grant.py:Grant.revoke_token", U+"oidc/token.py:AccessTokenHelper.post_parse_request")

p("Endpoints are where the metadata say they are",
  "The provider's metadata name every endpoint that is configured with the URL at which it is reached, which is the issuer, one slash and the path of the configuration, and name no other endpoint; they name the issuer of the configuration and the place of its keys. An assertion that a client makes for the URL it reads there is accepted at that endpoint, and one made for another place is not.",
  "all configurations of endpoints, capabilities and issuers, all assertions; also several providers in one process",
  "The URLs pass through four dictionaries, some of them shared with the configuration, and earlier entries take precedence; the audience check computes the URL again.",
  U+"util.py:build_endpoints", U+"server.py:do_endpoints", U+"server.py:get_capabilities", U+"endpoint_context.py:EndpointContext.create_providerinfo", U+"oidc/provider_config.py:ProviderConfiguration", U+"endpoint.py:Endpoint.allowed_target_uris")

p("The metadata say what is configured",
  "What an operator writes into the capabilities of the configuration is what the provider publishes, whatever the endpoints would publish by themselves, and the order in which the endpoints are listed makes no difference. Under the names that the capabilities do not mention stands what an endpoint is configured with, else what its class comes with, else, for algorithms, all that the library supports but for the weak ones.",
  "all configurations, all members of the metadata, all orders of the endpoints",
  "The members come from the configuration, from endpoint classes, from add-ons and from the ID token handler, which write over each other in a fixed order of their own.",
  U+"server.py:Server.__init__", U+"server.py:get_capabilities", U+"construct.py:construct_endpoint_info", U+"endpoint_context.py:EndpointContext.create_providerinfo")

p("What the metadata offer is there to be had",
  "Every authentication context class reference in the metadata can be asked for and is then met by the method of authentication that is used. Every scope in the metadata, also those that an add-on brings, is granted to a client that has no restriction of its own and passes the policy on unknown scopes. Every claim in the metadata comes with a scope in the metadata. Proofs of possession are accepted only with the algorithms in the metadata.",
  "all configurations, all values published, all requests for them",
  "The lists in the metadata and the checks on requests are made at different places from different parts of the configuration.",
  U+"endpoint_context.py:EndpointContext.create_providerinfo", U+"scopes.py:Scopes.get_allowed_scopes", U+"oidc/add_on/custom_scopes.py:add_custom_scopes", U+"oauth2/add_on/dpop.py:add_support", U+"user_authn/authn_context.py:pick_auth")

p("Clients authenticate at the token endpoint by the methods the metadata name",
  "The metadata name the methods of client authentication that the token endpoint is configured with. A token request passes client authentication only by one of these methods, and if it passes as a client then it carries what this method asks of this client. A request that carries the right credentials for one published method, of a client whose registration is in force, passes as this client.",
  "all configurations of endpoints, all client databases, requests and headers, all assertions and all identifiers of assertions used before",
  "The methods are published by one function and set up by another from the same configuration; every combination of methods and credentials is possible.",
  U+"client_authn.py:client_auth_setup", U+"client_authn.py:verify_client", U+"endpoint.py:Endpoint.__init__", U+"endpoint.py:Endpoint.client_authentication", U+"server.py:Server.__init__")

p("The method a client registered is the one it is authenticated by",
  "A client that registers a method of authentication for the token endpoint is authenticated there by this method and by no other.",
  "all series of registrations, all configurations of the token endpoint, all requests",
  "Registration and authentication are separate endpoints that share only the client database; any request may follow any series of registrations.",
  U+"oidc/registration.py:Registration.client_registration_setup", U+"oidc/registration.py:Registration.match_client_request", U+"client_authn.py:verify_client")

p("The token endpoint answers the grant types that are configured, registered and published",
  "A token response is for a grant type that the configuration of the token endpoint turns on, that the client has not excluded, and that the provider's metadata name; a request for any other grant type changes nothing. A live code or refresh token for a grant type that is turned on is honoured.",
  "all configurations of grant types, all series of registrations, all histories of authorizations and token requests",
  "The grant types are read in three places under two names: configuration, registration and metadata. Every combination of them can meet every history.",
  U+"oauth2/token.py:Token.configure_grant_types", U+"oauth2/token.py:Token._post_parse_request", U+"oauth2/token.py:Token.process_request", U+"oidc/registration.py:Registration.match_client_request")

p("The provider is configured as its settings say",
  "A configuration object made of settings holds each setting as it was given and, for each setting that was not given, the documented default with domain, port and file names put in. It holds nothing else, and no other setting changes it. Settings are refused only if they cannot be read. Certificates of other servers are verified unless the settings say otherwise.",
  "all dictionaries of settings, domains, ports and file names",
  "The settings are an open dictionary of any shape; which of them are dropped shows only in what the provider does much later.",
  U+"configure.py:EntityConfiguration.__init__", U+"configure.py:OPConfiguration", U+"configure.py:ASConfiguration", U+"configure.py:OP_DEFAULT_CONFIG", U+"util.py:get_http_params")

p("The configured usage rules apply to every token",
  "How often a token can be used, what it can be exchanged for and how long it lives is, for every token of every history, what the grant configuration says for its class and the client it was authorized for. No refresh token gets more responses than the configuration allows uses. With the default configuration codes are used once, and the refresh tokens that are issued can be used.",
  "all grant configurations, all histories of logins, authorizations, token requests and revocations in any interleaving",
  "The rules are copied from the configuration to the grant and from the grant to each token, at different times and by different functions; only a statement about all histories says that no token escapes them.",
  U+"authz/__init__.py:AuthzHandling.usage_rules", U+"authz/__init__.py:AuthzHandling.__call__", U+"session/grant.py:Grant.mint_token", U+"oauth2/token.py:TokenEndpointHelper._mint_token", U+"configure.py:OP_DEFAULT_CONFIG")

p("Answers are not cached, say what they are and tell of errors",
  "Every answer of every endpoint is marked as not to be cached and says once what type its content has. Where a request fails, the answer tells the error that was found, with its description, and nothing of the response that was being prepared. Where it succeeds, the answer is the message that was prepared, with its cookies and status code.",
  "all endpoints, all ways to set up where and how they answer, all arguments that processing hands over, in any combination",
  "The function takes a dozen optional arguments that processing functions fill in different combinations; tests cover the usual ones.",
  U+"endpoint.py:Endpoint.do_response", U+"endpoint.py:set_content_type", U+"oidc/userinfo.py:UserInfo.do_response", U+"oidc/discovery.py:Discovery.do_response")

p("A client that the end session endpoint lets in can end a session",
  "At an end session endpoint with methods of client authentication, a request by a client that authenticates with one of them is answered as it would be without client authentication, and one by anybody else is turned away. Without methods every request is read as it is. In all cases an ID token hint only counts if it verifies, is signed with an algorithm that the provider publishes for ID tokens, and belongs to the session of the cookie.",
  "all configurations of the endpoint, all requests with all combinations of credentials, all states of the provider",
  "Every method of client authentication hands over other things, and the endpoint reads two of them without asking; which combinations get through only shows by going through all of them.",
  U+"oidc/session.py:Session.parse_request", U+"oidc/session.py:Session.process_request", U+"client_authn.py:verify_client", U+"endpoint.py:Endpoint.client_authentication")

p("A hint about the user is respected",
  "An authorization request that says by an ID token or a login hint who the user is gets an answer without a login page only for that user. The user who is meant and is logged in is not asked again. A hint that fits no user leads to a login page. If the request asks for no authentication context, the acr of the ID token or the scheme of the login hint decides about the login page.",
  "all requests and hints, all user databases, all cookies and all states of the provider",
  "Hints are free text that is parsed and searched for in the user database, and meet any combination of cookies, sessions and prompts.",
  U+"oidc/authorization.py:proposed_user", U+"oidc/authorization.py:Authorization.do_request_user", U+"login_hint.py:LoginHintLookup", U+"login_hint.py:LoginHint2Acrs", U+"user_info/__init__.py:UserInfo.search", U+"oauth2/authorization.py:Authorization.setup_auth")

p("Token handlers are made as configured",
  "For each class of tokens that the configuration has settings for, and for no other, the provider has a handler of that class, with the life time that is configured or else the default one. Opaque tokens of different classes are encrypted with the keys that the key file has for them, and a class without a key has no such handler. Every token that one of the handlers made is recognised as a token of its class. A provider with the usual settings starts, and one without settings has handlers for codes, access tokens, refresh tokens and ID tokens.",
  "all configurations of the token handlers, all key files",
  "Settings can be at two places, can name a class or not, and are merged with keys from a file that is made when needed; tests use one or two of these shapes.",
  U+"token/handler.py:factory", U+"token/handler.py:init_token_handler", U+"token/handler.py:is_defined", U+"token/handler.py:TokenHandler.info", U+"endpoint_context.py:get_token_handler_args", U+"token/__init__.py:DefaultToken")

p("Every token request gets an answer",
  "Whatever a registered client sends to the token endpoint, in whatever state the provider is, it gets an answer: tokens, or an error message as the standard describes it. Codes and refresh tokens that are not recognised, or whose session has ended, are answered with the error invalid_grant, those of another client with invalid_grant, and those that come with another redirect URI with invalid_request; nothing of this raises an exception.",
  "all requests with any combination of parameters and any strings as tokens, all clients, all reachable states of the provider",
  "Tokens are strings that anybody can make up, and sessions end in many ways; which lookups fail with which exception depends on the state that all earlier requests have left.",
  U+"oauth2/token.py:Token._post_parse_request", U+"oauth2/token.py:Token.process_request", U+"oauth2/token.py:AccessTokenHelper.post_parse_request", U+"oidc/token.py:RefreshTokenHelper.post_parse_request", U+"session/manager.py:SessionManager.get_session_info_by_token", U+"session/database.py:Database.get")

p("Cookies have the configured flags and are dropped when they should",
  "Every cookie carries every configured flag with its configured value; without configured flags it is only sent over TLS, is hidden from scripts and has samesite None. A browser sends a cookie without a life time back until it gets another one of that name, and the provider reads from it what it put in; a cookie with a life time is sent until this time has passed and not after. The cookies that come with the end of a session make the browser drop both session cookies and no other.",
  "all configurations of flags and cookie names, all contents, all cookies that a browser has, all instants",
  "Attributes are merged from several places and only browsers act on them; a test sees the dictionary, not what a browser sends years later.",
  U+"cookie_handler.py:CookieHandler.make_cookie_content", U+"endpoint_context.py:EndpointContext.new_cookie", U+"oidc/session.py:Session.kill_cookies")

p("Authentication methods are found by their authentication context",
  "After every sequence of adding and removing authentication methods, asking for an authentication context class finds the methods that are registered for it at that time, each once and no other, and raises nothing; a registered method can be removed, which leaves the others. A configuration that gives every method a class is such a sequence. Every class that is published leads to a method, and which method a request leads to depends on the registered methods and their order alone.",
  "all histories of adding and removing methods, all classes, all authorization requests",
  "The index by class is kept beside the methods and has to follow every change; tests add two methods once and remove none or one.",
  U+"user_authn/authn_context.py:AuthnBroker", U+"user_authn/authn_context.py:pick_auth", U+"user_authn/authn_context.py:populate_authn_broker")

p("Extra arguments are in the answers they are configured for",
  "With the add-on for extra arguments, the answers of every endpoint that has arguments configured carry each of them with the value of the named attribute, if it has one, and are otherwise as they would be; error messages, ready made answers and other endpoints are as without the add-on. The provider starts exactly if it has the endpoints that are named.",
  "all configurations of the add-on, all answers of all endpoints",
  "The add-on goes by the class of what an endpoint hands over and by names of its own; the only test asks one endpoint for an argument that is there anyway.",
  U+"oauth2/add_on/extra_args.py:pre_construct", U+"oauth2/add_on/extra_args.py:add_support", U+"endpoint.py:Endpoint.construct", U+"oidc/userinfo.py:UserInfo.do_response")

p("The login page leads back to the request it was made for",
  "The login page that is shown for an authorization request carries a signed token. When the form is submitted, the application gets back from it exactly the request, the authentication context class, the redirect URI, the links that the client registered and what the request says about the user; the user is logged in for that request if and only if the password goes with the user name, and only forms that the provider made are accepted. The page shows the client's own links with their labels, and the configured texts where the client has none.",
  "all authorization requests, all registered clients, all configurations of the page, all user names and passwords, all tokens that could be submitted",
  "The page goes to the browser and comes back, where everything in it can be replaced; tests submit the page they were given.",
  U+"oauth2/authorization.py:authn_args_gather", U+"user_authn/user.py:create_signed_jwt", U+"user_authn/user.py:UserPassJinja2.__call__", U+"user_authn/user.py:UserPassJinja2.verify")

p("Registration accepts exactly the requests that are in order",
  "A registration request is accepted if and only if it asks for what the provider supports, its redirect URIs follow the rules for the type of the client, the URI for after the logout has no fragment, places of request objects have no query, the document of the sector lists all redirect URIs, links that are shown to users are on a site that one of the redirect URIs is on, and the keys that come along can be read. What is accepted is kept: links and sector as given, the signing algorithms that the provider has keys for, the keys that came along and then the secret, and the access token for reading the registration later.",
  "all registration requests, all provider configurations, all states of the client database and the key jar",
  "The decision is a conjunction of checks in several functions, each of which raises or answers in its own way; tests try one violation at a time and never all requests without one.",
  U+"oidc/registration.py:Registration.do_client_registration", U+"oidc/registration.py:verify_url", U+"oidc/registration.py:Registration._verify_sector_identifier", U+"oidc/registration.py:Registration.client_registration_setup")

p("Every client that has to hear of a logout hears of it",
  "When a user logs out everywhere, every client that registered a logout URI and got an ID token of the user hears that its session has ended: by a logout token that verifies and names this client and this session, posted to its back channel URI, or else by a frame with its front channel URI, which carries the issuer and the session exactly if the client asks for that. Nobody else is told anything. Logging out of one client tells this client and no other. What one client registered does not keep others from being told, nor changes what else is on the page.",
  "all histories of the provider, all sessions and users, all registrations with logout URIs, all behaviours of the clients' endpoints",
  "Who has to be told is the result of the whole history, and the telling goes over two channels with other parties that may fail; tests have one client with one session.",
  U+"oidc/session.py:Session.logout_all_clients", U+"oidc/session.py:Session.do_verified_logout", U+"oidc/session.py:Session.do_back_channel_logout", U+"oidc/session.py:do_front_channel_logout_iframe")

p("Tokens say of the user what is to be released in them and nothing else",
  "Under every name that is not one of the protocol's, an ID token or a signed access token has a value if and only if the claim is to be released in tokens of its class (because it was requested for it, by scope, by the settings of the client or the server), the user database has this value for this user, and the value is one that was asked for. The code and the access token that are issued with an ID token are not in it. A signed access token has the context of the login if claims are to be released in it and the login fits them. Tokens are made whatever else the user's record says, as long as it has no claims with the names of arguments of the functions that make tokens and requests for claims have the form of the standard.",
  "all user databases, requests, scopes, client and server settings, grants and logins; claims requests of the form of OpenID Connect Core 5.5.1",
  "What is released is the result of four sources, the record of the user and several rounds of renaming and removal of names; tests look for a claim or two that should be there, and not for all that should not.",
  U+"session/grant.py:Grant.payload_arguments", U+"session/grant.py:Grant.mint_token", U+"token/jwt_token.py:JWTToken.__call__", U+"token/id_token.py:IDToken.payload", U+"session/claims.py:ClaimsInterface.get_user_claims")

p("A token made with the shared key logs its user in, for as long as it lives",
  "With the authentication method for tokens that are made with a shared key, whoever sends a token that was made with the key for a user gets a session of that user, until the configured time to live has passed; nobody gets a session without such a token; a request without a token, or with one that does not open, leads to a login page or an error for the client and not to an exception.",
  "all keys, tokens and user names, all authorization requests, all cookies, all histories of the provider",
  "Tokens are random bytes, and which byte is in one decides how it is read; the only test reads one token that was made beforehand and does not go on to a session.",
  U+"user_authn/user.py:SymKeyAuthn.authenticated_as", U+"oauth2/authorization.py:Authorization.setup_auth", U+"oauth2/authorization.py:Authorization._unwrap_identity")

p("A provider starts if and only if its configuration is in order, and then has what was configured",
  "A provider starts if every part of its configuration is in order: supported algorithms, known ways to authenticate clients, an authentication context for every way to authenticate users, a key or a signature for every class of tokens, and the endpoints that add-ons add to. A provider that runs has exactly the endpoints that were configured, with the ways to authenticate that were named for each, all ways to authenticate users, and token handlers for exactly the configured classes. A configuration with an unsupported algorithm, an unknown way to authenticate, a way to authenticate users without context, encrypted tokens without any key, an add-on without its endpoint or without claims interface is refused at the start instead of failing requests later.",
  "all configurations with endpoints of the classes in the repository; for what is refused all configurations",
  "Starting goes through a dozen functions that read and write the same configuration in turn; tests start a handful of complete configurations, so what happens without one of the parts is not seen.",
  U+"server.py:Server.__init__", U+"util.py:allow_refresh_token", U+"util.py:build_endpoints", U+"token/handler.py:factory", U+"client_authn.py:client_auth_setup", U+"user_authn/authn_context.py:populate_authn_broker")

p("The session manager tells of a session what is stored for it",
  "Asked for a session by its identifier, the session manager tells the user, the client and the grant it is for, and of the user's record, the client's record, the grant, the authentication event and the authorization request exactly those that were asked for, in any combination, as they are stored - in particular, of a session that was just created the event and the request it was created with. Of a session that does not exist nothing is told. The authentication events of a user and a client are those of all their sessions and of no others, each once. A token is found in a session if and only if it was issued there. Changing a record changes what is told of this record and of no other.",
  "all histories of session operations, all users, clients and grants, all combinations of what can be asked for",
  "What is told depends on the whole history, and there are 32 combinations of what can be asked for; tests ask for one part at a time, of a database with one session.",
  U+"session/manager.py:SessionManager.get_session_info", U+"session/manager.py:SessionManager.get_authentication_events", U+"session/manager.py:SessionManager.find_token", U+"session/manager.py:SessionManager.add_grant", U+"session/database.py:Database.update")

p("Sessions and clients are isolated from each other",
  "Whatever the provider does for one session leaves all other sessions as they are, also those of the same user and of the same client: a login changes the record of the user, the one of the user with the client, and the new grant; work on a session changes its grant; a token request can only change the grants that its code or refresh token lead to. As long as nothing is done about a client's sessions none of them changes. In particular a token request of one client changes no session of another one, whatever codes and refresh tokens it presents.",
  "all histories of the provider, all next operations, all records of users, clients and grants, all token requests",
  "What an operation may touch by mistake is the whole database, whose shape depends on the history; tests look at the session they work on.",
  U+"session/manager.py:SessionManager.create_session", U+"session/database.py:Database.set", U+"oidc/token.py:AccessTokenHelper.post_parse_request", U+"oidc/token.py:AccessTokenHelper.process_request", U+"oidc/token.py:RefreshTokenHelper.process_request")

p("Whoever is logged in is not asked to log in again",
  "A user agent that sends the session cookie of a user is not shown a login page, as long as the session is active, the login counts, the cookie is young enough for the request and the request asks neither for a new login nor for another user; the request is then answered at once, as one of this user. This holds whichever client sends the request. In all other cases the user is asked to log in, or the client is told that this is needed: without a cookie, after the session has been revoked, has expired or has ended, when the cookie is too old, when another user is asked for, when a new login is asked for and when the login no longer counts.",
  "all histories of the provider, all session cookies given out so far, all authorization requests, all configurations of clients and methods",
  "Whether a login counts depends on the whole history of the session and on the time; tests send a cookie back at once, for the same client.",
  U+"oauth2/authorization.py:Authorization.setup_auth", U+"oauth2/authorization.py:re_authenticate", U+"user_authn/user.py:UserAuthnMethod.authenticated_as", U+"user_authn/user.py:UserAuthnMethod.cookie_info")

p("From the login to the claims, the code flow works",
  "After any history of the provider, a user who logs in on the login page of a request for a code sends the client a code, with the state of the request and without any token. Whatever happens then to other users, other clients and other sessions, the client that sends this code, with the redirect URI of its request and the verifier that belongs to it, before the code, the grant or the login have ended, gets an access token with the scope that was asked for, a refresh token and an ID token exactly when they were asked for and may be had for the code, and with this access token it gets claims about the subject that the user is for this client.",
  "all histories of the provider before the login, all operations between the login and the token request that leave the session as it is, all requests for codes, all configurations of usage rules that let codes be exchanged for access tokens",
  "That nothing is issued wrongly is true of a provider that issues nothing; that the flow works in every state needs the whole way through five functions from every reachable database, and tests walk it once in a fresh one.",
  U+"oauth2/authorization.py:Authorization.authz_part2", U+"oauth2/authorization.py:Authorization.create_authn_response", U+"oidc/token.py:AccessTokenHelper.post_parse_request", U+"oidc/token.py:AccessTokenHelper.process_request", U+"oidc/userinfo.py:UserInfo.process_request")

p("A token that is bound to a key is good only with a proof of that key",
  "An access token that was bound to a key by DPoP is taken, at the user info endpoint, from those who present it with the scheme of the standard and prove that they have the key, and from nobody else. Introspection of such a token tells the key it is bound to, and so does the token itself if it is signed, so that other resource servers can check it.",
  "all histories of a provider with DPoP, all requests to the user info endpoint and the introspection endpoint, all keys and proofs, all methods of the endpoint",
  "A stolen token is what the binding is against, and it may be sent by anyone in any way; tests only look at the token response.",
  U+"oauth2/add_on/dpop.py:DPoPClientAuth", U+"oauth2/add_on/dpop.py:add_support", U+"client_authn.py:verify_client", U+"oidc/userinfo.py:UserInfo.parse_request", U+"oauth2/introspection.py:Introspection._introspect")

p("What comes with the response to a login can be used at once",
  "A user who logs in on the login page of a request for any combination of a code, an access token and an ID token sends the client exactly these, with the state of the request. Whatever happens then to other users, other clients and other sessions, the access token gives claims about the subject that the user is for this client, for as long as the token and the login live; and the code can be exchanged just as one that came alone.",
  "all histories of the provider before the login, all operations after it that leave the session as it is, all requests for codes, access tokens and ID tokens in any combination, all configurations of usage rules",
  "Tests look at the response of a fresh provider and do not use what is in it; that it can be used in every state, in all seven combinations, is a statement about every history.",
  U+"oauth2/authorization.py:Authorization.authz_part2", U+"oauth2/authorization.py:Authorization.create_authn_response", U+"oauth2/authorization.py:Authorization.mint_token", U+"oidc/token.py:AccessTokenHelper.process_request", U+"oidc/userinfo.py:UserInfo.process_request")

p("A request that is in order brings up the login page, and so does one that was pushed",
  "In whatever state the provider is, a request without a cookie for a response type and a redirect URI that the client has registered, for scopes that it may ask for and with a code challenge if one is demanded, is answered with the login page of the method that the request asks for, and with prompt none with the error that a login is needed. Nothing else happens. The same page comes up when the client has pushed the request and comes with its URN, the first time that anybody does, whatever was pushed and asked in between. Once somebody logs in there the client gets exactly what it asked for.",
  "all states of the provider, all histories between a push and its use, all requests that keep to what their client has registered, all clients, methods and hints",
  "That wrong requests are refused is true of a provider that refuses all; that every right one passes the eight checks in its way, in every state, needs all requests and all registrations.",
  U+"endpoint.py:Endpoint.parse_request", U+"oauth2/authorization.py:Authorization._do_request_uri", U+"oauth2/authorization.py:Authorization._post_parse_request", U+"oauth2/authorization.py:Authorization.setup_auth", U+"oauth2/authorization.py:Authorization.process_request", U+"oauth2/pushed_authorization.py:PushedAuthorization", U+"oidc/add_on/pkce.py:post_authn_parse")

p("A client that refreshes in time stays served, however often it does",
  "A client that holds a live refresh token, and comes again and again with the refresh token of the last response, each time before it and the grant have ended, is given an access token and a new refresh token with the same scope each time. It does not matter how often it comes, nor what happens in between to other users, clients and sessions. As long as the login lives, the user info endpoint has claims about the user for every one of the access tokens. In particular this is so for a client that got its first refresh token for the code of a login.",
  "all reachable states with a live refresh token, all numbers of refreshes, all operations between them that leave the session as it is, all configurations, with and without revocation of refresh tokens on use",
  "Tests refresh once or twice; that the refresh token that comes out is as good as the one that went in, for ever, is an induction over the refreshes.",
  U+"oauth2/token.py:RefreshTokenHelper.process_request", U+"oidc/token.py:RefreshTokenHelper.process_request", U+"oidc/token.py:RefreshTokenHelper.post_parse_request", U+"session/grant.py:Grant.mint_token", U+"session/manager.py:SessionManager.find_token", U+"oidc/userinfo.py:UserInfo.process_request")

p("A pushed authorization request is used once, also by requests that are served at the same time",
  "Among any number of authorization requests with the URN of a pushed request that are served at the same time, at most one goes on, in whatever order the threads take turns, and it goes on with the request that was pushed under this URN. The others fail. Until one goes on the pushed request is not lost.",
  "all numbers of pushed requests and of threads, all interleavings of their single accesses to the shared table",
  "A race between two threads shows up in a test only by luck; that no interleaving lets two go on is an invariant over all schedules.",
  U+"oauth2/authorization.py:Authorization._do_request_uri", U+"oauth2/pushed_authorization.py:PushedAuthorization.process_request")

p("A client assertion is accepted once, also by requests that are served at the same time",
  "A client assertion with a jti is accepted at most once, also when several requests with it are served at the same time; it is not refused unless it was accepted in another request.",
  "all issuers and jtis, all numbers of threads, all interleavings of their single accesses to the shared table",
  "A race between two threads shows up in a test only by luck; the check and the note are two accesses between which another thread can come.",
  U+"client_authn.py:JWSAuthnMethod.verify", U+"client_authn.py:RequestParam.verify")

p("Sessions that are created at the same time are all there afterwards",
  "When several logins are served at the same time, of the same or of different users and at the same or at different clients, every session that is created can be read afterwards, no login fails, and no session from before is lost.",
  "all session databases, all numbers of logins, all interleavings of the single accesses that creating a session makes to the database",
  "Creating a session reads and writes three records in over ten accesses; tests run them one login after the other, and which interleavings lose a record is a question about all schedules.",
  U+"session/manager.py:SessionManager.create_session", U+"session/manager.py:SessionManager.create_grant", U+"session/database.py:Database.set", U+"session/database.py:Database.get")

p("A logout ends the sessions that are there, also while logins are served",
  "A logout of a user at a client revokes every session of the user at the client that could be read when it began, also when logins and other logouts are served at the same time, and it revokes no session of another user or at another client.",
  "all session databases, all numbers of logins and logouts, all interleavings of their single accesses to the database",
  "A logout goes through a list that other threads add to and through records that they replace; which interleavings let a session survive is a question about all schedules.",
  U+"session/manager.py:SessionManager.revoke_client_session", U+"session/manager.py:SessionManager.create_session", U+"session/database.py:Database.set", U+"session/database.py:Database.get")

p("A rotated refresh token is answered once, also when refreshes are served at the same time",
  "When revoke_refresh_on_issue is in force for the client, at most one successful token response is given for one refresh token, also when several requests with it are served at the same time, and the token is revoked from the first response on.",
  "all histories of logins, exchanges, revocations and refreshes in which any number of refreshes are each cut in two at any moment, and all configurations",
  "The token is revoked at the end of the processing of a request, after new tokens have been made; which schedules let two requests through is a question about all interleavings.",
  U+"oauth2/token.py:RefreshTokenHelper.process_request", U+"oidc/token.py:RefreshTokenHelper.process_request", U+"session/token.py:Item.revoke")

p("A revocation leaves nothing alive that is derived from the token, also when tokens are minted at the same time",
  "After grant.revoke_token(value) with recursion, and after grant.revoke_token(based_on=code) for a used code that is presented again, every token derived from the token or code is revoked, also when other threads are in the middle of mint_token at that moment.",
  "all grants, all numbers of threads that mint, use and revoke tokens of the grant, all interleavings in which mint_token is cut in two between its check of the base token and the appending of the new one",
  "mint_token checks that the base token is active long before it appends the new token; which interleavings let a token escape the revocation is a question about all schedules.",
  U+"session/grant.py:Grant.mint_token", U+"session/grant.py:Grant.revoke_token", U+"session/token.py:SessionToken.register_usage")

here = os.path.dirname(os.path.dirname(os.path.abspath(__file__)))
with open(os.path.join(here, "properties.jsonl"), "w") as f:
    for r in P:
        f.write(json.dumps(r) + "\n")
print(len(P))

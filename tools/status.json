{
 "C01": [
  "proved",
  "Exact condition under which lv_pack/lv_unpack round-trip, as an iff."
 ],
 "C02": [
  "proved",
  "Exact condition for the session key round trip, as an iff."
 ],
 "C03": [
  "proved",
  "For every ideal cipher; what trailing white space loses is proved as well."
 ],
 "C04": [
  "partial",
  "Refuted for identifiers that contain the separator; proved for identifiers without ';'."
 ],
 "C05": [
  "partial",
  "Proved for grants, and for user/client records that keep the list of subordinates; identifiers free of ';' and client ids that are not user names. Refuted for a user record that drops its clients."
 ],
 "C06": [
  "partial",
  "Proved for all histories in which no grant made with add_grant is removed; refuted otherwise (add_grant lists the id twice)."
 ],
 "C07": [
  "partial",
  "Proved for client ids that are not user names; refuted otherwise (delete uses the client id as a database key)."
 ],
 "C08": [
  "partial",
  "Refuted: records stay stored. Proved: they can no longer be read with get."
 ],
 "C09": [
  "partial",
  "Proved for all histories with clean identifiers in which no grant made with add_grant is removed; refuted otherwise: the grants listed after the removed one stay usable (C09_removed_grant_refuted)."
 ],
 "C10": [
  "proved",
  ""
 ],
 "C100": [
  "partial",
  "Proved where the token endpoint has one method; refuted for more, as the registered method is not looked at."
 ],
 "C101": [
  "partial",
  "Only grant types that are turned on and not excluded in the client's record are answered, and they are honoured. Refuted: registered grant types are stored under another name than the one looked at, and the default metadata do not name refresh_token (Ex.C101_registered_refuted, Ex.C101_published_refuted); shown with one grant type, or with capabilities that name what is turned on."
 ],
 "C102": [
  "partial",
  "settings that the class does not know are dropped, empty ones replaced, domain and port not put into the issuer"
 ],
 "C103": [
  "partial",
  "with the default configuration no refresh token is ever accepted (proved for all histories); where the grant configuration has no usage rules the rules of an earlier grant stay, see C60"
 ],
 "C104": [
  "partial",
  "WebFinger answers are not marked; with some arguments the type is said twice or the error is lost C104_configured_format: endpoints configured for another format."
 ],
 "C105": [
  "partial",
  "Proved for endpoints without client authentication and for the hint; for endpoints with client authentication the property is false: only requests with an access token in the body and a client id get through, and the token is not verified."
 ],
 "C106": [
  "partial",
  "Proved for login hints with a prefix that fit a user, and for authentication contexts. False for ID token hints (a misspelt parameter name), for hints that fit nobody (exceptions) and for plain addresses."
 ],
 "C107": [
  "partial",
  "Classes, keys, life times and recognition are proved for all configurations. Refuted: the default configuration makes no ID token handler, naming the default class without kwargs keeps the provider from starting, and configured passwords are replaced."
 ],
 "C108": [
  "partial",
  "The requests that raise an exception are characterised exactly over all reachable states, and the decision table for live codes and refresh tokens is proved. Refuted: unknown refresh tokens, sessions that ended beside another one, and codes without redirect URI raise exceptions."
 ],
 "C109": [
  "partial",
  "Flags, session cookies and dropped cookies are proved for all configurations and jars. That a cookie with a life time ends when it should is refuted: max-age is set to an absolute time; proved is that it is kept at least that long."
 ],
 "C11": [
  "proved",
  ""
 ],
 "C110": [
  "partial",
  "Proved for all histories in which no method is replaced under its id, and for every configuration; for all histories proved are the registered methods, their removal, and that no method is left out. Refuted where a method is replaced by one with another acr."
 ],
 "C111": [
  "partial",
  "Proved for the authorization endpoint, for errors, ready made answers and other endpoints, and for the start. Refuted for the token, introspection and user info endpoints, whose answers never get the configured arguments."
 ],
 "C112": [
  "partial",
  "proved except that only the provider's own pages are accepted, which is refuted: the token of the form may be signed by a client"
 ],
 "C113": [
  "proved",
  "accepted if and only if in order, given that a free client id is drawn; what is kept of it"
 ],
 "C114": [
  "partial",
  "Proved for all histories when the clients' logout endpoints can be reached; refuted when one cannot (the clients after it are not told) and for front channel URIs with a quote (markup on the provider's page)."
 ],
 "C115": [
  "proved",
  ""
 ],
 "C116": [
  "partial",
  "Nobody gets a session without a token (proved), and tokens with a wrapped user name work if they have one colon. Refuted: plain user names never work (the id is bytes), tokens with a colon among their bytes raise, the time to live is ignored, requests without a token or with a token of another key raise an exception, and the user of a cookie replaces that of the token."
 ],
 "C117": [
  "partial",
  "C117_has_all and C117_refuses hold for all configurations; C117_starts_partial needs settings for refresh tokens and known grant types if there is a token endpoint, which the property does not: C117_without_refresh and C117_without_grant_types show for all configurations that nothing else helps, and C117_starts_refuted and C117_capabilities_refuted that the property fails for this code."
 ],
 "C118": [
  "partial",
  "C118_unknown_session_refused, C118_events_unknown_refused and C118_token_found hold for all databases; the other theorems need, as C06, that no grant made with add_grant is removed; C118_session_told_partial excludes asking for the grant and the event together, which C118_session_told_refuted shows never to get an answer, and C118_events_once_partial excludes add_grant, for which C118_events_once_refuted shows a login told twice. C118_records_told_partial covers get_user_info, get_user_session_info and get_client_session_info with their type checks, C118_records_stored the same for all databases, C118_id_of_token get_session_id_by_token."
 ],
 "C119": [
  "partial",
  "Proved for all operations but the presentation of a used code by another client, which is refuted: it revokes the tokens of the client the code was issued to."
 ],
 "C12": [
  "proved",
  ""
 ],
 "C120": [
  "partial",
  "Proved for the client the cookie was made for and sessions that are in the database; refuted for other clients (no single sign-on) and for removed sessions (KeyError)."
 ],
 "C121": [
  "proved",
  "From every history of the provider, with anything in between that leaves the session alone."
 ],
 "C122": [
  "partial",
  "Proved: signed tokens say the key. Refuted: bound tokens are taken as bearer tokens without a proof, never with the scheme DPoP (every state), and introspection does not tell the key."
 ],
 "C123": [
  "proved",
  "For sessions that are not changed in between, as in C121."
 ],
 "C124": [
  "proved",
  "Redirect URIs as in C31 (bases differ, nothing percent-encoded), since the code cannot serve the others; requests without cookies (with cookies: C37-C39, C120)."
 ],
 "C125": [
  "proved",
  "Refresh requests without a scope of their own; the scope of the token and the scope it is based on are the same (for others C20)."
 ],
 "C126": [
  "proved",
  "For all schedules of any number of threads; the accesses to the table are taken as the atomic steps, as they are under Python's interpreter lock."
 ],
 "C127": [
  "partial",
  "Refuted: two threads can both look before either notes the jti. Proved for all schedules: once accepted, no request that comes later is accepted with it, and none is refused unless one was accepted."
 ],
 "C128": [
  "partial",
  "Refuted for first logins of a user and first logins at a client. Proved for all schedules when the user has been at the client before: every session that is created can be read, none of the logins fails; and no session that could be read before is lost, in any case."
 ],
 "C129": [
  "partial",
  "Refuted for a client that is new for the user: a record that another login stores late brings back a session the logout did not see. Where the user has been at the client before: over all schedules every session that could be read when the logout began is revoked when it is over (C129_ended_partial). Over all schedules, sessions of other users or at other clients stay as they were (C129_others), and can still be read where their client's record was there before (C129_others_readable_partial). Where the user has been at the client before and the sessions that its record lists are there, no logout there is stopped by an error (C129_no_error_partial), and each comes to its end when it is let run (C129_finishes_partial)."
 ],
 "C13": [
  "proved",
  ""
 ],
 "C130": [
  "partial",
  "Refuted: two threads can both make tokens before either revokes the refresh token. Proved for all histories: from the first response on the token is revoked, a request that comes later gets no response, and at most the threads that were past minting still answer."
 ],
 "C131": [
  "partial",
  "Refuted: mint_token checks the base token before it makes the value and appends the new token after it, so a thread in between appends a live token after the revocation or the replay of the code. Proved for all schedules: if no thread is in between with a token of the line, everything derived is revoked for ever."
 ],
 "C14": [
  "proved",
  ""
 ],
 "C15": [
  "partial",
  "Refuted for two threads on one code (mint and register_usage are separate steps); proved when no two exchanges of one code overlap. For all schedules, also with refreshes in between: after the first answer at most the threads that had made their tokens by then still answer."
 ],
 "C16": [
  "proved",
  ""
 ],
 "C17": [
  "proved",
  ""
 ],
 "C18": [
  "proved",
  ""
 ],
 "C19": [
  "proved",
  ""
 ],
 "C20": [
  "partial",
  "Refuted: the scope of a refresh request is checked against the grant, so a narrowed token can widen again. Proved: never wider than the grant."
 ],
 "C21": [
  "proved",
  ""
 ],
 "C22": [
  "proved",
  ""
 ],
 "C23": [
  "partial",
  "Proved for all histories and all later histories: tokens of token responses live exactly the configured time (default 1800 s), also as told to the client. Refuted: the default configuration's life time of -1 for refresh tokens makes them useless when handed out."
 ],
 "C24": [
  "proved",
  ""
 ],
 "C25": [
  "partial",
  "False of the code for a revoked grant or client session (C25_revoked_grant_refuted): the endpoints do not look at the grant's state. Proved: a revoked, used up or expired token is refused and inactive in every later state."
 ],
 "C26": [
  "proved",
  ""
 ],
 "C27": [
  "proved",
  ""
 ],
 "C28": [
  "proved",
  "Hash transformations are parameters. Grants added by an application with add_grant are outside the second half."
 ],
 "C29": [
  "partial",
  "Holds for the default handler order and payloads without entries named token_class or ttype; refuted for an order with the ID token handler first, for such payloads, and for unsigned JWT-like strings with an odd aud (IndexError). Cryptography is a parameter with laws."
 ],
 "C30": [
  "proved",
  "verify_uri decides membership exactly (first registered base with that query decides)"
 ],
 "C31": [
  "partial",
  "refuted for two registrations with the same base and for percent-encoded URIs; proved for plain URIs with distinct bases"
 ],
 "C32": [
  "proved",
  ""
 ],
 "C33": [
  "proved",
  ""
 ],
 "C34": [
  "proved",
  "Over all histories of the provider: URNs never repeat, are resolved at most once and to what was pushed; at the endpoint, a second use is refused whatever happens in between."
 ],
 "C35": [
  "partial",
  "Refuted: another client can present the URN, and it works after the announced lifetime. Proved: the request that is used names the client that pushed it, and that client's redirect URI."
 ],
 "C36": [
  "partial",
  "filter and deny_unknown_scopes are proved exactly. Tokens: proved over all histories with deny_unknown_scopes, refuted without it."
 ],
 "C37": [
  "partial",
  "refuted as stated (an expired login gives a login page); proved otherwise"
 ],
 "C38": [
  "partial",
  "refuted for user names that are base64url of JSON; proved for all other names"
 ],
 "C39": [
  "partial",
  "Refuted for max_age=0, for requests with upm_answer=true, and because the cookie's time is renewed with every response; proved relative to the time in the cookie."
 ],
 "C40": [
  "partial",
  "refuted for a broker with a single method and for logins that are reused; proved for all other brokers, and for hints"
 ],
 "C41": [
  "proved",
  "For specifications of the form of OIDC Core 5.5.1; the rest of the domain is described by C41_other_specifications (exception, or text search in a string)."
 ],
 "C42": [
  "proved",
  ""
 ],
 "C43": [
  "proved",
  "For a registered client and a release point with a module; Python dictionaries have no key twice (ProperClaims)."
 ],
 "C44": [
  "partial",
  "Refuted: _client_claims extends the list in the client database. Holds for evaluations without a second release point or for clients without a list for the first."
 ],
 "C45": [
  "partial",
  "Proved for every state and string, except that acr is told without being allowed (C45_acr_refuted). Also proved: whose claims they are over every history of the provider, and that a live token is answered."
 ],
 "C46": [
  "partial",
  "Proved: active=true only for live access and refresh tokens in any state; equivalence and no exception for tokens whose session is found. Refuted: exceptions for removed sessions and expired JWTs, and the subject told."
 ],
 "C47": [
  "partial",
  "Proved for iss, aud, exp, sub, nonce, auth_time, acr over all user databases; hashes proved unless the user's record has claims called code, access_token, c_hash or at_hash, and refuted otherwise."
 ],
 "C48": [
  "partial",
  "False of the code (C48_user_claims_refuted). Proved: sid, iss, exp always; sub, client_id, scope, aud, token_class, cnf if the user's record has no such name."
 ],
 "C49": [
  "partial",
  "Soundness of secrets, completeness and the classification of every method are proved; the claim on wrong secrets holds for the methods with secrets and is false with bearer_body (C49_bearer_body_refuted)."
 ],
 "C50": [
  "proved",
  "Over all series of requests."
 ],
 "C51": [
  "partial",
  "Equivalence proved for the documented configuration (bearer_header only); false for bearer_body and for an endpoint without methods."
 ],
 "C52": [
  "proved",
  "For single calls and for all series of registrations; a client_id_generator of one's own is not modelled."
 ],
 "C53": [
  "partial",
  "False as stated (C53_refuted): a refused registration can leave a client with a secret behind. Proved: early refusals change nothing; a leftover client has nothing of the request and no usable redirect URI."
 ],
 "C54": [
  "partial",
  "False as stated (C54_refuted, and C54_any_parameter_refuted for every other name). Proved: what the request does not name is the provider's own, and the client id and redirect URIs cannot be set unchecked."
 ],
 "C55": [
  "partial",
  "Exact for web clients, up to the authorization endpoint; for native clients a fragment is accepted (C55_native_fragment_refuted)."
 ],
 "C56": [
  "proved",
  "Exact, and for the records after all series of registrations."
 ],
 "C57": [
  "partial",
  "Proved for values and types that can be told apart; false with '::' in the value, and with '|' if cookies are only signed (C57_colons_refuted, C57_bar_refuted)."
 ],
 "C58": [
  "partial",
  "Proved for encrypted cookies; for signed ones only the concatenation of payload and time stamp is protected (C58_signed_refuted)."
 ],
 "C59": [
  "proved",
  "C59_merge: class by class and rule by rule; C59_rulesOf: the same for the rules the authorization handler puts in a grant."
 ],
 "C60": [
  "partial",
  "The claim is false: C60_defaults_refuted and C60_client_refuted show rules of one grant leaking into the module defaults and the client record. C60_history_independent_partial: over any series of calls nothing changes for classes the server has rules for. C60_grant_first: what a call returns. C60_defaults: what the defaults are."
 ],
 "C61": [
  "partial",
  "Public subjects over all histories of the provider: C61_public_partial. Pairwise subjects: C61_pairwise_partial for callers of the session manager. The claim is false of the authorization endpoint, which never uses pairwise subjects (C61_pairwise_client_refuted), and of the concatenation without separators (C61_concatenation_refuted)."
 ],
 "C62": [
  "partial",
  "Proved for the client the request names, and in full for requests that name no other client than the session's; the confirmation's content is proved too. Refuted in full: a request may name another client and be sent to that client's URI."
 ],
 "C63": [
  "partial",
  "Proved for clients with a logout URI and an ID token when all clients of the user are registered; logging out of one client is proved in full, and that the outcome does not depend on the clients' endpoints. Refuted in full: clients without a logout URI stay logged in, and an unregistered client blocks everything."
 ],
 "C64": [
  "partial",
  "refuted: values are not escaped; proved that the fields are the parameters if no value has a quotation mark"
 ],
 "C65": [
  "proved",
  "C65_permitted, C65_refused: nothing but supported algorithms is published from configuration or built-in defaults; C65_no_weak_default; C65_order and C65_sorted: the order is total and RS comes first."
 ],
 "C66": [
  "proved",
  "Token endpoint, authorization, revocation and session removal operations; user info and introspection only read. Users, clients and grants with clean ids."
 ],
 "C67": [
  "partial",
  "refuted: get_uri returns the URI as sent while verify_uri checks the decoded one; proved for URIs that decoding does not change"
 ],
 "C68": [
  "partial",
  "Proved over all histories of the whole provider, with the response type and PKCE checked for the client that sends the request, and for the one client if there is no pushed authorization endpoint. Refuted in general: another client can present a pushed request and so skip PKCE."
 ],
 "C69": [
  "partial",
  "Refuted: an explicit False of the client falls back to the server's setting. The partial theorem says what decides."
 ],
 "C70": [
  "proved",
  ""
 ],
 "C71": [
  "proved",
  "For client ids and origins without spaces; the hash does not collide on the two texts."
 ],
 "C72": [
  "proved",
  "For all fair histories (session ids from the provider, names without the separator); for every token of every grant. Relies on the seal of token values (Env.info_seal) and of session ids (Env.decrypt_enc)."
 ],
 "C73": [
  "partial",
  "Proved: the confirmation ends exactly the cookie's session, and a text without the provider's signature changes nothing. Refuted in full: a JWT access token (or ID token) of the provider is taken as confirmation."
 ],
 "C74": [
  "proved",
  "For all fair histories, when all clients of the user are registered."
 ],
 "C75": [
  "proved",
  "For every configuration of encrypted and signed handlers and for all histories; the assumptions on keys, random strings and payloads are in Spec/Parts. The provider of the history theorems is built from the modelled parts (Parts.env)."
 ],
 "C76": [
  "proved",
  "For every history and interleaving; access tokens are not covered, since their uses are not registered anywhere."
 ],
 "C77": [
  "partial",
  "Proved: a password is needed, wrong ones are refused, right ones work, and without a cookie of someone else for the client the session is the user's. Refuted with such a cookie (C77_other_cookie_refuted) and for passwords with a colon (C77_colon_refuted)."
 ],
 "C78": [
  "proved",
  ""
 ],
 "C79": [
  "proved",
  ""
 ],
 "C80": [
  "partial",
  "refuted for user names that are base64url of JSON, which get a new event of another user; proved for all other names"
 ],
 "C81": [
  "partial",
  "Proved for proofs without a claim jwk, as an iff; refuted for the key when there is one, and for the type of the proof, which is not checked."
 ],
 "C82": [
  "partial",
  "Proved for the OpenID Connect token endpoint when requests come with HTTP information; refuted: replayed proofs, refresh with another key, requests without HTTP information."
 ],
 "C83": [
  "partial",
  "Proved as an iff for references, with the odd condition the code has for encrypted objects and where names of algorithms are not parts of one another; refuted for places when none are registered, for parts of names, and for encrypted objects."
 ],
 "C84": [
  "partial",
  "Proved for objects that do not refer to further objects; refuted for the client: an object can name another client."
 ],
 "C85": [
  "partial",
  "Proved for histories with ordinary names; refuted for names that look like base64url, and a cookie of a removed session is not as good as none."
 ],
 "C86": [
  "partial",
  "Proved for cookies of the authorization endpoint with ordinary names, and their time stamps in general; refuted for the cookie of the token endpoint."
 ],
 "C87": [
  "partial",
  "Proved for the authorization, token, user info and introspection endpoints and all records; refuted for the session cookie of the token endpoint. Token values are taken as not forged."
 ],
 "C88": [
  "partial",
  "Signing of ID tokens and user info proved; logout tokens proved for clients that registered an algorithm or if RS256 is the provider's first. Refuted: encryption of ID tokens, logout tokens in general, user info with one registered encryption algorithm."
 ],
 "C89": [
  "partial",
  "Proved for an endpoint whose configured methods are client_secret_basic, client_secret_post, client_secret_jwt and private_key_jwt. Refuted for an endpoint without configured methods (the default of the token endpoint) and for bearer_header."
 ],
 "C90": [
  "partial",
  "Working until the expiry time in the answer, not after it, and only with this secret: proved in full. That the expiry time follows the provider's configuration is proved for requests that bring neither a secret nor an expiry time, and refuted for others."
 ],
 "C91": [
  "partial",
  "Proved for the user info endpoint, and for an introspection endpoint with methods that authenticate clients; refuted for an introspection endpoint without configured methods, which is the default."
 ],
 "C92": [
  "partial",
  "Proved for requests that fit (target, place, members, state, issuer), and for login_required without a response mode or in a form; refuted for login_required with query or fragment, for failures without a response mode, and for the issuer in forms."
 ],
 "C93": [
  "partial",
  "Proved for every history and configuration where the usage rules give the class a positive life time (token and authorization endpoint), for the handler's life time where they give none, and that no signed token is accepted after its end. The code violates the rest: the default configuration tells the client 1800 seconds while the token says 3600, and with a life time of 0 a signed token is never accepted (refuted theorems)."
 ],
 "C94": [
  "proved",
  "for all reachable states; the handlers' not failing is a hypothesis"
 ],
 "C95": [
  "partial",
  "holds when the chain is shorter than the interpreter's stack; refuted for every finite stack"
 ],
 "C96": [
  "partial",
  "holds where the configuration names no URLs of endpoints; refuted for a second provider made from the same configuration"
 ],
 "C97": [
  "partial",
  "holds for members that nothing else decides about, and for endpoints that agree; refuted for ID token algorithms and for the order of endpoints"
 ],
 "C98": [
  "partial",
  "acr values in full; scopes where the configuration does not list them; refuted for listed scopes and for DPoP algorithms"
 ],
 "C99": [
  "partial",
  "Proved where methods are configured for the token endpoint and the capabilities name none; refuted for the default configuration (no method published, everybody passes) and for methods named in the capabilities."
 ]
}
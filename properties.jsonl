{"id": "C01", "title": "Label text parses to its canonical, meaning-preserving range list", "statement": "Constructing a label from a text either fails with a payload error, or yields ranges that are ascending, pairwise disjoint and non-adjacent, each with low <= high, and that contain exactly the integers named by the comma-separated items of the text. It fails exactly when some item is not an integer, not an integer range, or a descending range.", "quantifier": "every label text (every list of comma-separated items, of any length, order, overlap and magnitude)", "why_tests_cant": "The set of texts is infinite and merging interacts with order, nesting and adjacency; sampling cannot rule out a mis-merged combination.", "anchors": ["opennsa/nsa.py:Label.__init__", "opennsa/nsa.py:Label._parseLabelValues"]}
{"id": "C02", "title": "Label text and database round trip", "statement": "Rendering a label as text and parsing that text again gives an equal label; hence a label stored in the database and read back is the same label.", "quantifier": "every label obtained from parsing any text (and every label obtained by intersecting such labels)", "why_tests_cant": "Round trip must hold for every range list, single value, and width of number; tests check a handful.", "anchors": ["opennsa/nsa.py:Label.labelValue", "opennsa/nsa.py:Label._parseLabelValues", "opennsa/database.py:adaptLabel", "opennsa/database.py:LabelComposite"]}
{"id": "C03", "title": "Label intersection is exact", "statement": "Intersecting two labels of the same type yields a label holding exactly the integers common to both, and raises the empty-label-set error exactly when there is none; the 'can match' test answers yes exactly when both labels are absent, or both present with a common value.", "quantifier": "every pair of labels of the same type, any number of ranges", "why_tests_cant": "The two-cursor walk has many interleavings of range boundaries; only an inductive argument covers all lengths.", "anchors": ["opennsa/nsa.py:Label.intersect", "opennsa/nsa.py:Label.canMatch"]}
{"id": "C04", "title": "Enumerating a label lists each member once, ascending", "statement": "Enumerating the values of a label gives a strictly ascending list that contains exactly the members of the label; a label reports being single valued exactly when that list has length one.", "quantifier": "every label obtained from parsing any text", "why_tests_cant": "Relies on canonical form of all possible range lists.", "anchors": ["opennsa/nsa.py:Label.enumerateValues", "opennsa/nsa.py:Label.singleValue"]}
{"id": "C05", "title": "Label equality is equality of type and value set", "statement": "Two labels compare equal exactly when they have the same type and denote the same set of integers, however they were constructed (text, list or integer).", "quantifier": "every pair of labels built through any constructor form", "why_tests_cant": "Needs canonicity of the representation: two different texts with the same set must give identical ranges for all texts.", "anchors": ["opennsa/nsa.py:Label.__eq__", "opennsa/nsa.py:Label.__init__"]}
{"id": "C06", "title": "A random label value is a member of the label", "statement": "Drawing a random value from a label always returns a value the label contains.", "quantifier": "every label and every outcome of the random generator", "why_tests_cant": "A test sees only the draws that happened; an out-of-range draw has low probability for wide ranges.", "anchors": ["opennsa/nsa.py:Label.randomLabel"]}
{"id": "C07", "title": "STP identifiers round trip through their URN", "statement": "Serialising a service termination point to its URN and parsing that URN gives back the same network, port and label; texts without the NSI URN prefix are rejected. The label part is read exactly when it is vlan= or mpls= followed by the values of a label; another one with at most one '=' is an error of the request.", "quantifier": "every STP whose network and port are valid identifiers (port without ':' and no '?' or '=' in names; label type without '#'), with or without a label", "why_tests_cant": "String splitting/replacing must be right for every identifier, including ones that contain the prefix or separators.", "anchors": ["opennsa/nsa.py:STP.urn", "opennsa/nsa.py:STP.baseURN", "opennsa/protocols/nsi2/helper.py:createSTP", "opennsa/protocols/nsi2/helper.py:parseLabel"]}
{"id": "C08", "title": "State switches follow the NSI state machines and refuse atomically", "statement": "Any sequence of state-change requests on a connection moves each of its three state machines only along NSI edges: a reservation is confirmed back to 'start' only via 'held'-and-committing or via aborting; 'provisioned' is only entered from 'provisioning'; a lifecycle never leaves 'terminated', and never returns to 'created'. A refused request leaves all states unchanged.", "quantifier": "every finite sequence of state-change requests, from a freshly created connection", "why_tests_cant": "Histories are unbounded; the property quantifies over all of them.", "anchors": ["opennsa/state.py:RESERVE_TRANSITIONS", "opennsa/state.py:PROVISION_TRANSITIONS", "opennsa/state.py:LIFECYCLE_TRANSITIONS", "opennsa/state.py:_switchState"]}
{"id": "C09", "title": "The reservation calendar never admits overlapping reservations", "statement": "If every reservation is added only after the calendar's availability check passed at that moment, then no two reservations of the same resource ever have a common instant, even with open start or end times.", "quantifier": "every history of check-then-add and remove requests with non-decreasing clock", "why_tests_cant": "Depends on all pairs of intervals in all histories and on the moving meaning of an absent start time.", "anchors": ["opennsa/backends/common/calendar.py:ReservationCalendar.checkReservation", "opennsa/backends/common/calendar.py:ReservationCalendar._resourceOverlap", "opennsa/backends/common/calendar.py:ReservationCalendar.addReservation"]}
{"id": "C10", "title": "The reservation calendar does not refuse a free slot", "statement": "The availability check succeeds exactly when the times are sane (not reversed, not in the past, not after 2095) and no stored reservation of the same resource shares an instant with the requested interval; reservations of other resources never matter.", "quantifier": "every calendar content without expired entries, every resource and interval", "why_tests_cant": "Boundary cases (touching ends, open ends) over all calendars.", "anchors": ["opennsa/backends/common/calendar.py:ReservationCalendar.checkReservation", "opennsa/backends/common/calendar.py:ReservationCalendar._resourceOverlap"]}
{"id": "C11", "title": "Removing a reservation undoes exactly one addition", "statement": "Adding a reservation and later removing it leaves the calendar answering every availability check as if it had never been added; removing something that is not there fails and changes nothing.", "quantifier": "every calendar and every interleaving of other additions between", "why_tests_cant": "Multiset semantics across all contents and orders.", "anchors": ["opennsa/backends/common/calendar.py:ReservationCalendar.removeReservation", "opennsa/backends/common/calendar.py:ReservationCalendar.addReservation"]}
{"id": "C12", "title": "At most one pending timer per connection; cancelled timers never fire", "statement": "At any time a connection has at most one pending scheduled action; a scheduled action runs at most once, never before its time, and never after it was cancelled; scheduling over a pending action is refused.", "quantifier": "every history of schedule, cancel, cancel-all and clock advance", "why_tests_cant": "Histories and timings are unbounded.", "anchors": ["opennsa/backends/common/scheduler.py:CallScheduler.scheduleCall", "opennsa/backends/common/scheduler.py:CallScheduler.cancelCall", "opennsa/backends/common/scheduler.py:CallScheduler.cancelAllCalls"]}
{"id": "C13", "title": "Every route returned is real", "statement": "A path returned by the path finder starts at the requested local network, each hop uses an announced link vector from the network reached so far, it ends in the requested network, visits no blacklisted network, never revisits the source, and its total cost is within the configured maximum.", "quantifier": "every vector table with non-negative costs, every blacklist, every maximum cost, every source/destination", "why_tests_cant": "Graphs are unbounded; greedy search with in-place updates needs an invariant.", "anchors": ["opennsa/topology/linkvector.py:LinkVector._dijkstra", "opennsa/topology/linkvector.py:LinkVector.path"]}
{"id": "C14", "title": "Routes are cheapest, and found whenever one exists", "statement": "If any route from the source to the destination avoiding blacklisted networks and returning to the source exists with cost at most the maximum, a path is returned, and no such route is cheaper than the returned one.", "quantifier": "every vector table with non-negative costs, every blacklist and maximum cost", "why_tests_cant": "Optimality over all graphs cannot be sampled.", "anchors": ["opennsa/topology/linkvector.py:LinkVector._dijkstra", "opennsa/topology/linkvector.py:LinkVector.path"]}
{"id": "C15", "title": "Path lookup terminates", "statement": "Asking for a path always returns (a path or 'none') or raises the 'not a local network' error; it never loops.", "quantifier": "every vector table", "why_tests_cant": "Non-termination shows up only on particular cost patterns.", "anchors": ["opennsa/topology/linkvector.py:LinkVector.path"]}
{"id": "C16", "title": "Vector updates take effect", "statement": "After an update announces a cost for a destination over a port, the routing table uses that cost for that destination over that port; after a port is deleted no returned route uses it; other ports are unaffected.", "quantifier": "every history of updates and deletes", "why_tests_cant": "Needs all histories of announcements, including re-announcement with changed cost.", "anchors": ["opennsa/topology/linkvector.py:LinkVector.updateVector", "opennsa/topology/linkvector.py:LinkVector.deleteVector"]}
{"id": "C17", "title": "Port authorization rules", "statement": "A port without rules admits every request; a port with rules admits a request exactly when some supported rule is satisfied by the presented credentials (header attributes by type and value, host DN by certificate). Adding credentials never revokes access.", "quantifier": "every rule list, credential list and request", "why_tests_cant": "Decision logic over unbounded lists.", "anchors": ["opennsa/authz.py:isAuthorized"]}
{"id": "C18", "title": "An accepted backend reservation satisfies every admission check", "statement": "If the network backend accepts a reservation then: both ends are in its network and name existing ports, the caller is authorized on both ports, the duration is at least the minimum, not both ports are transit-restricted, the two ends are not the same termination point, the label sets requested intersect those of the ports, and both chosen resources were free in the requested interval.", "quantifier": "every request, port configuration, calendar content and connection-manager behaviour", "why_tests_cant": "Combination of many independent conditions and all calendars.", "anchors": ["opennsa/backends/common/genericbackend.py:GenericBackend.reserve", "opennsa/backends/common/genericbackend.py:GenericBackend._authorize"]}
{"id": "C19", "title": "The label allocated by the backend was both requested and configured", "statement": "The single label value allocated on each end of an accepted reservation belongs to the label set requested for that end and to the label set configured for that port.", "quantifier": "every accepted request", "why_tests_cant": "Depends on set relations between arbitrary label sets.", "anchors": ["opennsa/backends/common/genericbackend.py:GenericBackend.reserve"]}
{"id": "C20", "title": "The backend finds a label if one is free", "statement": "When all other checks pass, the backend refuses for unavailability only if every candidate label value is already taken in the interval on the relevant port(s); otherwise it allocates the smallest free candidate.", "quantifier": "every label set and calendar content", "why_tests_cant": "Search over unbounded candidate lists.", "anchors": ["opennsa/backends/common/genericbackend.py:GenericBackend.reserve"]}
{"id": "C21", "title": "No resource is ever booked twice at the same time", "statement": "At no point in any history do two live reservations, or the two ends of one reservation, occupy the same port/label resource at a common instant.", "quantifier": "every history of reserve, commit, abort, provision, release, terminate, timer expiry, end-time expiry and restart", "why_tests_cant": "Unbounded histories with timers and restarts.", "anchors": ["opennsa/backends/common/genericbackend.py:GenericBackend", "opennsa/backends/common/calendar.py:ReservationCalendar"]}
{"id": "C22", "title": "The backend calendar matches the stored connections", "statement": "After every completed operation the calendar holds exactly the resources of those connections that hold or own them (held or committed, and not yet ended, timed out or terminated), each once per end.", "quantifier": "every history of completed operations, timers and restarts", "why_tests_cant": "Leaks appear only in particular operation orders.", "anchors": ["opennsa/backends/common/genericbackend.py:GenericBackend._doReserveRollback", "opennsa/backends/common/genericbackend.py:GenericBackend._doFreeResource", "opennsa/backends/common/genericbackend.py:GenericBackend.buildSchedule"]}
{"id": "C23", "title": "The data plane is only up for a committed, provisioned connection", "statement": "A link is only set up for a connection that was committed and for which provisioning was requested, not before its start time; whenever operations have completed, a connection marked active is committed, provisioned and not terminated.", "quantifier": "every history of completed operations, timers and restarts", "why_tests_cant": "Safety over all histories.", "anchors": ["opennsa/backends/common/genericbackend.py:GenericBackend.provision", "opennsa/backends/common/genericbackend.py:GenericBackend._doActivate"]}
{"id": "C24", "title": "An uncommitted reservation expires and frees its resources", "statement": "A held reservation that is not committed is rolled back at the earlier of its end time and the two-minute limit; afterwards its resources are available again and it can no longer be committed.", "quantifier": "every history and every timing of the timeout relative to other requests", "why_tests_cant": "Timing and history quantification.", "anchors": ["opennsa/backends/common/genericbackend.py:GenericBackend._doReserve", "opennsa/backends/common/genericbackend.py:GenericBackend._doReserveTimeout", "opennsa/backends/common/genericbackend.py:GenericBackend._doReserveRollback"]}
{"id": "C25", "title": "Termination is final and idempotent at the backend", "statement": "Terminating a connection removes its reservation and data plane; afterwards commit, abort, provision and release are refused as gone; repeating terminate succeeds without effect.", "quantifier": "every history of completed operations", "why_tests_cant": "All subsequent histories.", "anchors": ["opennsa/backends/common/genericbackend.py:GenericBackend.terminate"]}
{"id": "C26", "title": "Restart restores calendar and timers", "statement": "After a restart the calendar again holds exactly the resources of live connections, and every live connection has the timer its state requires (timeout, activation or end).", "quantifier": "every stored set of connections and every restart time", "why_tests_cant": "All database contents and restart instants.", "anchors": ["opennsa/backends/common/genericbackend.py:GenericBackend.buildSchedule"]}
{"id": "C27", "title": "Concurrent requests cannot resurrect a released or terminated connection", "statement": "If release or terminate completes while a slow activation of the same connection is in flight, the connection stays released/terminated and its data plane does not remain up.", "quantifier": "every interleaving of the steps of concurrent operations on one connection", "why_tests_cant": "Interleavings at suspension points are not controllable in unit tests.", "anchors": ["opennsa/backends/common/genericbackend.py:GenericBackend._doActivate", "opennsa/backends/common/genericbackend.py:GenericBackend.release", "opennsa/backends/common/genericbackend.py:GenericBackend.terminate"]}
{"id": "C28", "title": "Aggregator: reserveConfirmed only when every segment is held, once", "statement": "The requester receives reserveConfirmed for a connection only after every segment requested from a provider has been confirmed held; it receives it at most once, and never after it was told the reservation failed.", "quantifier": "every order, duplication and interleaving of provider replies", "why_tests_cant": "All message orders and numbers of segments.", "anchors": ["opennsa/aggregator.py:Aggregator.reserveConfirmed", "opennsa/aggregator.py:Aggregator.reserveFailed"]}
{"id": "C29", "title": "Aggregator: the confirmed endpoint labels are those of the first and last segment", "statement": "The criteria sent in reserveConfirmed carry as source label the label confirmed by the first segment and as destination label the label confirmed by the last segment.", "quantifier": "every number of segments and every arrival order of confirmations", "why_tests_cant": "Order-dependent behaviour.", "anchors": ["opennsa/aggregator.py:Aggregator.reserveConfirmed"]}
{"id": "C30", "title": "Aggregator: commit, provision, release and terminate are confirmed only when all segments have confirmed", "statement": "The requester receives the confirmation of commit, abort, provision, release or terminate only when every segment has reached the corresponding state, and exactly once per request.", "quantifier": "every order and duplication of provider replies, any number of segments", "why_tests_cant": "All message interleavings.", "anchors": ["opennsa/aggregator.py:Aggregator.reserveCommitConfirmed", "opennsa/aggregator.py:Aggregator.reserveAbortConfirmed", "opennsa/aggregator.py:Aggregator.provisionConfirmed", "opennsa/aggregator.py:Aggregator.releaseConfirmed", "opennsa/aggregator.py:Aggregator.terminateConfirmed"]}
{"id": "C31", "title": "Aggregator: unsolicited or forged replies have no effect", "statement": "A reserve reply with an unknown correlation id, or from another provider than the one asked, is rejected and changes nothing; each correlation id is accepted at most once. A reply about a segment only affects the connection of the provider that sent it.", "quantifier": "every message from any provider at any time", "why_tests_cant": "Adversarial messages over all histories.", "anchors": ["opennsa/aggregator.py:Aggregator.reserveConfirmed", "opennsa/aggregator.py:Aggregator.reserveFailed", "opennsa/aggregator.py:Aggregator.getSubConnection"]}
{"id": "C32", "title": "Aggregator: a partly refused reservation is cleaned up", "statement": "If any provider refuses the reservation request, every provider that accepted gets a terminate for exactly the segment it accepted (addressed to it), the connection ends up terminated, and the requester gets an error.", "quantifier": "every pattern of accepting and refusing providers", "why_tests_cant": "All subsets of failures.", "anchors": ["opennsa/aggregator.py:Aggregator.reserve"]}
{"id": "C33", "title": "Aggregator: segments form a contiguous chain from source to destination", "statement": "The segments requested start at the source, end at the destination, each lies inside one network (source and destination of a segment are in the same network, except the last which is delegated), and consecutive segments meet at the two ends of one inter-network link.", "quantifier": "every topology and every endpoint pair", "why_tests_cant": "All topologies and path lengths.", "anchors": ["opennsa/aggregator.py:Aggregator.reserve"]}
{"id": "C34", "title": "Aggregator: admission policies are enforced before anything is requested", "statement": "With the trace policy no request without connection trace, with the user policy no request without user attribute, and without the aggregator policy no request with both ends outside the local networks, leads to any provider request or stored connection. Hairpin connections are refused unless allowed.", "quantifier": "every request and policy set", "why_tests_cant": "Combination of conditions.", "anchors": ["opennsa/aggregator.py:Aggregator.reserve"]}
{"id": "C35", "title": "Aggregator: aggregate data plane status", "statement": "The data plane status reported for a connection is active exactly when it has segments and all of them are active; version is the maximum of segment versions; consistent exactly when it has segments, all of them are consistent, and all or none are active.", "quantifier": "every list of segments and states", "why_tests_cant": "All lists.", "anchors": ["opennsa/aggregator.py:Aggregator.dataPlaneStateChange", "opennsa/aggregator.py:Aggregator.querySummary"]}
{"id": "C36", "title": "Aggregator: timeout is announced once", "statement": "When several segments of a connection time out, the requester is notified of the reserve timeout exactly once.", "quantifier": "every order of segment timeouts", "why_tests_cant": "All orders.", "anchors": ["opennsa/aggregator.py:Aggregator.reserveTimeout"]}
{"id": "C37", "title": "Aggregator: recursive query answers once, complete", "statement": "A recursive query is answered at most once, only when every segment has answered, and the answer contains one child result per segment; replies to unknown queries are ignored; concurrent queries do not mix.", "quantifier": "every interleaving of queries and replies", "why_tests_cant": "All interleavings.", "anchors": ["opennsa/aggregator.py:Aggregator.queryRecursive", "opennsa/aggregator.py:Aggregator.queryRecursiveConfirmed"]}
{"id": "C38", "title": "Aggregator: summary query shows only the requester's own connections", "statement": "A summary query returns only connections created by the asking NSA (unless it is configured as administrator), and all of them that match.", "quantifier": "every database content and every query", "why_tests_cant": "All contents.", "anchors": ["opennsa/aggregator.py:Aggregator.querySummary", "opennsa/config.py:Config.is_admin_override"]}
{"id": "C39", "title": "Aggregator: only the owner can operate a connection", "statement": "Commit, abort, provision, release and terminate on a connection are refused for any NSA other than the one that reserved it.", "quantifier": "every request by any NSA in any state", "why_tests_cant": "All callers and histories.", "anchors": ["opennsa/aggregator.py:Aggregator.getConnection", "opennsa/aggregator.py:Aggregator.terminate", "opennsa/backends/common/genericbackend.py:GenericBackend._getConnection"]}
{"id": "C40", "title": "Connection ids and notification ids are not reused", "statement": "Notification ids handed out by a provider are strictly increasing; correlation ids registered for outstanding calls are distinct as long as the id generator does not repeat.", "quantifier": "every history", "why_tests_cant": "All histories.", "anchors": ["opennsa/aggregator.py:Aggregator.getNotificationId", "opennsa/backends/common/genericbackend.py:GenericBackend.getNotificationId"]}
{"id": "C41", "title": "Protocol provider: each confirmation reaches the request it answers, once", "statement": "The confirmation for an operation on a connection is sent to the reply address and with the correlation id of the request that asked for that operation; each request is answered at most once; confirmations nobody asked for are not sent.", "quantifier": "every interleaving of requests and confirmations over all connections", "why_tests_cant": "All interleavings.", "anchors": ["opennsa/protocols/nsi2/provider.py:Provider"]}
{"id": "C42", "title": "Protocol requester: each call completes at most once, with its own reply", "statement": "Each outgoing call completes at most once: with the reply carrying its correlation id, or with a timeout. Replies with unknown correlation id, and replies after completion, have no effect on other calls; no two pending calls share a correlation id.", "quantifier": "every interleaving of calls, replies and timeouts", "why_tests_cant": "All interleavings.", "anchors": ["opennsa/protocols/nsi2/requester.py:Requester.addCall", "opennsa/protocols/nsi2/requester.py:Requester.triggerCall"]}
{"id": "C43", "title": "Provider registry maps each network to one provider", "statement": "A network is registered at most once; looking up a registered network gives the provider and URN it was registered with, forever; unknown networks are refused; networks with the same NSA share one provider.", "quantifier": "every history of registrations", "why_tests_cant": "All histories.", "anchors": ["opennsa/provreg.py:ProviderRegistry"]}
{"id": "C44", "title": "Error classes survive the wire", "statement": "An NSI error sent as a service exception is received as an error of the same class (same NSI error code); an unknown code falls back to its family class; malformed codes are reported as unknown error.", "quantifier": "every error class and every code string", "why_tests_cant": "All code strings.", "anchors": ["opennsa/error.py:lookup", "opennsa/error.py:NSI_ERROR_CODE_TABLE", "opennsa/protocols/nsi2/helper.py:createServiceException", "opennsa/protocols/nsi2/helper.py:createException"]}
{"id": "C45", "title": "Security attributes survive the wire", "statement": "The security attributes of a request arrive at the receiver with the same multiset of (type, value) pairs, in the same order within each type.", "quantifier": "every attribute list", "why_tests_cant": "All lists.", "anchors": ["opennsa/protocols/nsi2/helper.py:_createHeader", "opennsa/protocols/nsi2/helper.py:parseRequest"]}
{"id": "C46", "title": "Recursive query results survive the wire", "statement": "A recursive query result, converted to the wire structure and back, has the same tree of connection ids, providers, states and times, children in order.", "quantifier": "every result tree", "why_tests_cant": "All trees.", "anchors": ["opennsa/protocols/nsi2/queryhelper.py"]}
{"id": "C47", "title": "Timestamps survive the wire", "statement": "A time rendered for the wire and parsed back is the same instant; a wire time with an offset denotes the instant obtained by subtracting the offset; a wire time without zone is rejected.", "quantifier": "every timestamp and offset", "why_tests_cant": "All timestamps.", "anchors": ["opennsa/shared/xmlhelper.py:createXMLTime", "opennsa/shared/xmlhelper.py:parseXMLTimestamp"]}
{"id": "C48", "title": "Port map entries mean what the file says", "statement": "Each non-comment line of the port description file yields exactly one port with the name, interface, remote port, labels, bandwidth, and attributes of that line, or an error; comment and blank lines yield none; duplicate names are detected or last-wins consistently.", "quantifier": "every file", "why_tests_cant": "All files.", "anchors": ["opennsa/topology/nrm.py:parsePortSpec"]}
{"id": "C49", "title": "State observers are all notified", "statement": "Whenever a connection's state is saved, every observer subscribed to it at that time is called exactly once, even if observers unsubscribe themselves while being called.", "quantifier": "every subscription list and every observer behaviour", "why_tests_cant": "All lists and self-removals.", "anchors": ["opennsa/state.py:subscribe", "opennsa/state.py:desubscribe", "opennsa/state.py:saveNotify"]}
{"id": "C50", "title": "REST auto-commit / auto-provision drive each step once", "statement": "With automatic commit and provision, a reservation is committed once when held and provisioned once when committed, and nothing is sent after provisioning; auto-provision without auto-commit is refused.", "quantifier": "every sequence of observed state changes", "why_tests_cant": "All sequences.", "anchors": ["opennsa/protocols/rest/resource.py:P2PConnectionsResource"]}
{"id": "C51", "title": "HTTP host allow-list", "statement": "With an allow-list configured, a request is admitted exactly when it is secure, presents a client certificate and the certificate's host name is on the list.", "quantifier": "every request and list", "why_tests_cant": "Decision logic.", "anchors": ["opennsa/protocols/shared/requestauthz.py:checkAuthz", "opennsa/protocols/shared/soapresource.py:SOAPResource.render_POST"]}
{"id": "C52", "title": "Conditional GET never hides a newer document", "statement": "A 'not modified' answer is only given if the document has not changed since the client's timestamp; before the first document is set an error is returned.", "quantifier": "every update/fetch history", "why_tests_cant": "All histories at second granularity.", "anchors": ["opennsa/shared/modifiableresource.py:ModifiableResource"]}
{"id": "C53", "title": "Discovered reachability gives usable vectors", "statement": "Processing a peer's discovery document announces, on each port facing one of the peer's networks, cost 1 for the peer's own networks and the advertised cost plus one for networks behind it, and never announces local networks' own blacklisted entries as reachable beyond the maximum cost.", "quantifier": "every document", "why_tests_cant": "All documents.", "anchors": ["opennsa/discovery/fetcher.py:FetcherService.gotDocument"]}
{"id": "C54", "title": "Provision and release alternate with the data plane", "statement": "After a completed release the data plane of the connection is down (or its teardown failure was reported) and the connection can be provisioned again before its end time.", "quantifier": "every history of completed operations", "why_tests_cant": "Unbounded provision/release cycles.", "anchors": ["opennsa/backends/common/genericbackend.py:GenericBackend.release", "opennsa/backends/common/genericbackend.py:GenericBackend.provision"]}
{"id": "C55", "title": "Failed sub-operations are reported as the failure that happened", "statement": "When some segments fail an operation, the requester receives an error: the segment's own error if exactly one failed, an aggregate error naming each failing provider otherwise; if all succeed no error is raised.", "quantifier": "every list of outcomes", "why_tests_cant": "All lists.", "anchors": ["opennsa/aggregator.py:_createAggregateException"]}
{"id": "C56", "title": "Command line STP arguments mean what the documentation says", "statement": "The command line client reads a termination point argument as network:port with an optional #type=values part exactly when the argument has that form (the port being what follows the last colon, the type one of vlan and mpls, the values a label text); every other argument is an error.", "quantifier": "every argument text", "why_tests_cant": "The set of argument texts is infinite; the claim is an exact characterisation of the accepted ones.", "anchors": ["opennsa/cli/commands.py:_createSTP", "opennsa/nsa.py:Label"]}
{"id": "C57", "title": "Aggregator: messages about a connection go to the requester that made it", "statement": "In every state that can be reached, however the handlers of messages are interleaved and across restarts, every confirmation, failure or notification about a connection that was sent upwards is addressed to the requester of that connection; connections keep their id, key and requester for ever, ids are unique, and every segment belongs to a connection.", "quantifier": "every interleaving of message handlers, every answer of the providers, restarts", "why_tests_cant": "All interleavings of all message sequences.", "anchors": ["opennsa/aggregator.py:Aggregator.getConnection", "opennsa/aggregator.py:Aggregator.reserveConfirmed", "opennsa/aggregator.py:Aggregator.dataPlaneStateChange"]}
{"id": "C58", "title": "Aggregator: only the requester of a connection can operate on it or see it in detail", "statement": "A request about a connection by an NSA that neither made it nor is an administrator has no effect on it and is not answered with its details.", "quantifier": "every state and every request", "why_tests_cant": "All states and requests; needs a witness to refute.", "anchors": ["opennsa/aggregator.py:Aggregator.terminate", "opennsa/aggregator.py:Aggregator.queryRecursive"]}
{"id": "C59", "title": "Message headers survive the wire", "statement": "The header of a message is received as it was sent: requester, provider, correlation id, reply address and, hop by hop and in order, the connection trace.", "quantifier": "every header and every body", "why_tests_cant": "All headers and traces of any length.", "anchors": ["opennsa/protocols/nsi2/helper.py:_createHeader", "opennsa/protocols/nsi2/helper.py:parseRequest"]}
{"id": "C60", "title": "Requests, confirmations, failures and notifications survive the wire", "statement": "A reservation request, a reservation confirmation, a failure, a timeout notification, a data plane notification and the messages that carry only a connection id are received with the ids, termination points, capacity, direction, parameters, times, states and errors they were sent with. Of several services in one request the first is taken, and the request is treated as if the others were not there.", "quantifier": "every message", "why_tests_cant": "All messages.", "anchors": ["opennsa/protocols/nsi2/requesterclient.py:RequesterClient.reserve", "opennsa/protocols/nsi2/providerservice.py:ProviderService.reserve", "opennsa/protocols/nsi2/providerclient.py:ProviderClient", "opennsa/protocols/nsi2/requesterservice.py:RequesterService"]}
{"id": "C61", "title": "Summary query results survive the wire", "statement": "Summary query results are received with the ids, description, requester, states, notification and result ids, and for each criteria the revision, schedule and service they were sent with. Every answer carries the requester, provider and correlation id of its request.", "quantifier": "every list of results", "why_tests_cant": "All lists.", "anchors": ["opennsa/protocols/nsi2/queryhelper.py:buildQuerySummaryResultType", "opennsa/protocols/nsi2/queryhelper.py:buildQueryResult"]}
{"id": "C62", "title": "REST: what is reserved is what the request says", "statement": "A connection made through the REST interface is reserved with the end points, times, capacity and flags that the JSON fields denote, with the documented defaults for absent fields; the text by which an end point is described can be used to ask for the same end point again, and so can the description as a whole; a request that cannot be read is refused with an error code.", "quantifier": "every JSON document; every end point", "why_tests_cant": "All documents and all labels.", "anchors": ["opennsa/protocols/rest/resource.py:P2PBaseResource.render_POST", "opennsa/protocols/rest/resource.py:conn2dict"]}
{"id": "C63", "title": "Discovery: what is published is what a peer learns", "statement": "From the discovery document that a service publishes, the fetcher of a peer reads the identity, the provider URL, the networks and the reachable networks with their costs that the service has, and so registers a provider for exactly those networks. Any document is either refused as a whole, because it is not a discovery document or a cost in it is not a number, or all networks and reachable networks in it are used.", "quantifier": "every set of networks, interfaces, features and known providers; every document", "why_tests_cant": "The document is made from the whole state of the service, and is read by other code than the one that wrote it.", "anchors": ["opennsa/discovery/service.py:DiscoveryService.xml", "opennsa/discovery/bindings/discovery.py:NsaType", "opennsa/discovery/fetcher.py:FetcherService.gotDocument"]}
{"id": "C64", "title": "NML: the published topology describes exactly the ports", "statement": "The topology document lists every configured port once, with its two directions, its label set under the NML name of its type, and the remote ports in the matching directions; reading the document gives the same topology again.", "quantifier": "every list of port descriptions", "why_tests_cant": "All lists of ports, labels and remote ends.", "anchors": ["opennsa/topology/nml.py:createNMLNetwork", "opennsa/topology/nmlxml.py:topologyXML", "opennsa/topology/nmlxml.py:parseNMLTopology"]}
{"id": "C65", "title": "Device resources: what shares hardware shares a calendar entry", "statement": "Two ends that would be configured on the same interface with the same label have the same resource name, so that the calendar never lets two connections have them at once; ends that need nothing in common have different names.", "quantifier": "every port map and every pair of ends, for each backend", "why_tests_cant": "The names are glued from strings; collisions and gaps show only for particular ports and labels.", "anchors": ["opennsa/backends/dud.py:DUDConnectionManager.getResource", "opennsa/backends/junosmx.py:JUNOSMXConnectionManager.getResource", "opennsa/backends/junosex.py:JunosEXConnectionManager.getResource", "opennsa/backends/juniperex.py:JuniperEXConnectionManager.getResource", "opennsa/backends/junipervpls.py:JuniperVPLSConnectionManager.getResource", "opennsa/backends/brocade.py:BrocadeConnectionManager.getResource", "opennsa/backends/pica8ovs.py:Pica8OVSConnectionManager.getResource"]}
{"id": "C66", "title": "Device: taking a connection down removes it and nothing else", "statement": "After any sequence of set ups and tear downs of connections that share no resources, the switch is configured for exactly the connections that are up.", "quantifier": "every sequence of set up and tear down operations", "why_tests_cant": "A delete command that is too wide destroys another customer's connection, one that is too narrow leaves traffic flowing; both depend on what else is configured.", "anchors": ["opennsa/backends/juniperex.py:JuniperEXCommandSender", "opennsa/backends/junosex.py:JunosEXCommandSender", "opennsa/backends/junosmx.py:JUNOSMXCommandSender", "opennsa/backends/junipervpls.py:JuniperVPLSCommandSender", "opennsa/backends/brocade.py:BrocadeCommandSender", "opennsa/backends/pica8ovs.py"]}
{"id": "C67", "title": "Device: connections that are accepted can be set up and taken down", "statement": "For every pair of ends for which the connection manager says that they can be connected, the commands for setting up and for taking down can be made, and mention both ends.", "quantifier": "every pair of ends of every kind, for each backend", "why_tests_cant": "Kinds of ends that appear in no test raise exceptions when the connection is due.", "anchors": ["opennsa/backends/junosmx.py:JUNOSMXConnectionManager.canConnect", "opennsa/backends/force10.py:Force10ConnectionManager.getResource", "opennsa/backends/ncsvpn.py:NCSVPNConnectionManager.getResource", "opennsa/backends/pica8ovs.py:Pica8OVSConnectionManager.getResource"]}
{"id": "C68", "title": "Pruner: pruned labels still fit together", "statement": "Pruning a path leaves ports and networks as they are and only narrows labels; the two sides of every demarcation point keep a common label, and the network that cannot choose gets a single value.", "quantifier": "every path and every label set", "why_tests_cant": "All paths and label sets.", "anchors": ["opennsa/plugins/pruner.py:pruneLabels"]}
{"id": "C69", "title": "Configuration: every setting is read as written", "statement": "A configuration that is accepted yields the values in the file, with lists split at commas and the documented defaults for absent settings; errors are reported and not ignored.", "quantifier": "every configuration file", "why_tests_cant": "All files; blanks, empty entries and repeated sections matter.", "anchors": ["opennsa/config.py:Config._readVerifyConfig"]}
{"id": "C70", "title": "Plugins: different numbers give different connection ids", "statement": "The connection ids made by the Canarie plugin from different numbers of its sequence are different, as are the ids that the default plugin makes from different draws. However often the service is started, and with whatever settings, the Canarie plugin makes no id twice, and once serviceid_start was set it makes one for every request until the numbers of the column are used up.", "quantifier": "every two numbers, every two draws; every sequence of starts and requests", "why_tests_cant": "All pairs of numbers; the text is cut in the middle, and the numbers have any length.", "anchors": ["opennsa/plugins/canarie.py:CanariePlugin.createConnectionId", "opennsa/plugin.py:BasePlugin.createConnectionId", "opennsa/database.py:getBackendConnectionId", "opennsa/database.py:setupDatabase"]}
{"id": "C71", "title": "OESS: a link is reported up only if its circuit exists, and down only if it is gone", "statement": "When setting up a link on OESS raises no error, a circuit between the two ends, with their vlans, exists at the server; when taking it down raises no error, that circuit does not exist any more, and all other circuits still do.", "quantifier": "every server (circuits, workgroups, interfaces, answers) and every pair of ends", "why_tests_cant": "Needs servers that refuse requests, restarts of the agent, circuits listed in either direction, and several circuits between the same interfaces.", "anchors": ["opennsa/backends/oess.py:oess_get_circuit_id", "opennsa/backends/oess.py:oess_process_result", "opennsa/backends/oess.py:oess_confirm_vlan_availability", "opennsa/backends/oess.py:OessSetup.oess_provisioning", "opennsa/backends/oess.py:OessSetup.oess_circuit_removal"]}
{"id": "C72", "title": "Command sessions: all commands are sent, in order, and the session ends, however the answers are cut into packets", "statement": "In a session with a switch or router the commands are written in the order given, each once. If the device answers every command with its prompt, then the session sends all commands and ends, whatever packets the answers arrive in. It ends only after the device has answered all configuration commands, a command is written only after the previous one has been answered, and a device that does not answer, or refuses a command, makes the session fail.", "quantifier": "every list of commands, every device (texts of the answers), every cutting into packets, every order of arrival of packets, answers and timeouts", "why_tests_cant": "The ways to cut a text into packets are exponentially many, and a session that hangs has no result to compare.", "anchors": ["opennsa/backends/brocade.py:SSHChannel", "opennsa/backends/force10.py:SSHChannel", "opennsa/backends/pica8ovs.py:SSHChannel", "opennsa/backends/junosmx.py:SSHChannel", "opennsa/backends/junosex.py:SSHChannel", "opennsa/backends/juniperex.py:SSHChannel", "opennsa/backends/junipervpls.py:SSHChannel"]}
{"id": "C73", "title": "Command sessions: one at a time, and none is kept waiting for ever", "statement": "No two sessions that share an uncommitted configuration of a device are under way at the same time, and a session that was asked for is started when those before it have ended, also if an earlier one failed or the connection to the device was lost.", "quantifier": "every order of requests, of opened channels, of ended and failed sessions and of lost connections", "why_tests_cant": "Needs all interleavings of concurrent sessions and failures.", "anchors": ["opennsa/backends/junosmx.py:JUNOSCommandSender._sendCommands", "opennsa/backends/junosmx.py:JUNOSCommandSender._getSSHChannel", "opennsa/backends/junosex.py:JunosEx4550CommandSender._sendCommands", "opennsa/backends/juniperex.py:JuniperEXCommandSender._sendCommands", "opennsa/backends/junipervpls.py:JuniperVPLSCommandSender._sendCommands", "opennsa/backends/brocade.py:BrocadeCommandSender.sendCommands", "opennsa/backends/common/ssh.py:SSHConnectionCreator.getSSHConnection"]}
{"id": "C74", "title": "A stored connection keeps what it was made for", "statement": "Whatever requests, timers, database, device and parent operations overlap, fail, or are cut off by a restart: every stored connection was made for a reservation request that was acceptable, and has the requester, ports, times, id and one of the labels asked for; ids are unique; a stored connection never disappears and none of this ever changes. It is committed or provisioned only if that was requested by someone entitled to its ports.", "quantifier": "every configuration, every schedule of requests, scheduled calls, performed and answered operations, failures and restarts", "why_tests_cant": "The number of interleavings of concurrent requests with database and device operations and of restart points is unbounded.", "anchors": ["opennsa/backends/common/genericbackend.py:GenericBackend.reserve", "opennsa/backends/common/genericbackend.py:GenericBackend.buildSchedule", "opennsa/backends/common/genericbackend.py:GenericBackend._doActivate", "opennsa/backends/common/genericbackend.py:GenericBackend._authorize"]}
{"id": "C75", "title": "The backend tells its parent only what was asked for and is stored", "statement": "Every message of the backend to its parent is about a stored connection. A confirmation (of a reservation, commit, abort, provision, release, terminate) is sent only if that operation was requested for the connection by someone entitled to its ports; the confirmation of a reservation carries the stored labels and times and the correlation id of the request it was made for; the data plane is reported up only if provision was requested.", "quantifier": "every configuration, every schedule of requests, scheduled calls, performed and answered operations, failures and restarts; every message sent", "why_tests_cant": "Needs all interleavings and failures; a misattributed confirmation shows only in rare ones.", "anchors": ["opennsa/backends/common/genericbackend.py:GenericBackend._doReserve", "opennsa/backends/common/genericbackend.py:GenericBackend.reserveCommit", "opennsa/backends/common/genericbackend.py:GenericBackend.provision", "opennsa/backends/common/genericbackend.py:GenericBackend.terminate", "opennsa/backends/common/genericbackend.py:GenericBackend._doActivate"]}
{"id": "C76", "title": "Command line: options and the defaults file mean what they say", "statement": "The defaults file is read line by line: `option=value` sets a default (the last one counts), `nsa=short,id,url` defines a shorthand for a provider, comments and unknown options are ignored. An option given on the command line takes precedence over its default; a shorthand given as the provider stands for its id and URL. Security attributes are those between commas, cut at the first `=`. If TLS is asked for, then a TLS context is used or the command is refused. Certificates are verified unless the user asks not to.", "quantifier": "every defaults file, every set of options, every command", "why_tests_cant": "All combinations of options with lines of a file; a default may mean the opposite of what it says.", "anchors": ["onsa:doMain", "onsa:getHostname", "opennsa/cli/options.py:readDefaults", "opennsa/cli/parser.py:SecurityAttributeOptions.postOptions", "opennsa/opennsaTlsContext.py:opennsa2WayTlsContext"]}
{"id": "C77", "title": "Command line: requests are made in order, for the right connection, and none after a failure", "statement": "A command that reserves sends the reservation asked for; if it is confirmed, the requests that the command stands for follow in order, with the connection id of the confirmation, each after the one before has been confirmed, none after a failure. Other commands send one request, for the connection given. The user is told of a success only if it was confirmed, and of every NSI error. Requests have different correlation ids; only the reservation carries the connection trace. The wait for notifications ends with the first event saying that the connection has failed or is down everywhere.", "quantifier": "every command, plan, behaviour of the provider, and sequence of notifications", "why_tests_cant": "Every provider behaviour and failure point.", "anchors": ["opennsa/cli/commands.py:reserve", "opennsa/cli/commands.py:reserveprovision", "opennsa/cli/commands.py:rprt", "opennsa/cli/commands.py:provision", "opennsa/cli/commands.py:_handleEvent"]}
{"id": "C78", "title": "Outgoing requests go where the URL says, protected as it says, and their outcome is reported", "statement": "A request goes to the host and port of its URL (80 or 443 if it has none), with TLS exactly if the scheme is https, and then only if the certificate is that of the host; URLs with other schemes are refused. SOAP messages carry their action, content type and the headers of the caller, and are given up after the time limit. A request counts as acknowledged only if there was a reply with a status of success; the provider's NSI error is reported, any other failure as an NSI error. Discovery asks every peer in every round, at intervals doubling up to one hour.", "quantifier": "every URL, payload, header and outcome; every list of peers and number of rounds", "why_tests_cant": "All URLs and all network outcomes.", "anchors": ["opennsa/protocols/shared/httpclient.py:httpRequest", "opennsa/protocols/shared/httpclient.py:soapRequest", "opennsa/protocols/nsi2/requesterclient.py:RequesterClient._handleErrorReply", "opennsa/discovery/fetcher.py:FetcherService.fetchDocuments"]}
{"id": "C79", "title": "The service serves what it announces, at all times, and nothing else", "statement": "From the start on, and after any discovery documents of peers, requests get to exactly these resources: the provider service and the REST service (if configured) with the configured allow-list, the topology of each network, the discovery document, and one resource for replies per peer that requests are sent to. The discovery document lists exactly these interfaces, each at a URL where the right resource answers and which leads to the listening host, port and TLS setting. Requests to a peer ask for replies at a URL where they are accepted, and different peers have different ones. The discovery document is current.", "quantifier": "every configuration and environment with which the service starts, every sequence of discovery documents, every path", "why_tests_cant": "All configurations, histories of documents and paths.", "anchors": ["opennsa/setup.py:OpenNSAService.setupServiceFactory", "opennsa/setup.py:CS2RequesterCreator.create", "opennsa/protocols/nsi2/__init__.py:setupRequesterPair", "opennsa/protocols/shared/soapresource.py:setupSOAPResource", "opennsa/discovery/fetcher.py:FetcherService.gotDiscoveryDocument"]}
{"id": "C80", "title": "The service starts exactly when what is configured can be set up, and runs as configured", "statement": "The service starts if and only if database, TLS files and plugin can be used and each configured backend has a name, a readable port map, a type that is known and a topology; else it is refused as a configuration error. It listens on the configured port with the configured certificate and verification; the networks of its backends are registered under its own URN, with link vectors for their ports, and stay with their backends whatever peers announce; it asks peers exactly if some are configured. When it is stopped, its services are.", "quantifier": "every configuration, environment and sequence of discovery documents", "why_tests_cant": "All configurations and environments.", "anchors": ["opennsa/setup.py:setupBackend", "opennsa/setup.py:setupTLSContext", "opennsa/setup.py:OpenNSAService.setupServiceFactory", "opennsa/setup.py:OpenNSAService.startService", "opennsa/setup.py:OpenNSAService.stopService"]}
{"id": "C81", "title": "A message becomes the call of the method it is named after, with the same arguments", "statement": "Each call of the requester client (reserve, reserveCommit, reserveAbort, provision, release, terminate, queries) becomes, at the provider service of the peer, exactly the call of the method of the same name with the same arguments and the same header (requester, provider, correlation id, reply address, security attributes, trace); each reply and notification of the provider client becomes, at the requester service, the call of the method of the same name with the same arguments. Whatever is posted, a method is called only for the action of its own name, with what header and body say; other actions are refused. The answer to a reserve request carries the connection id.", "quantifier": "every call, header and argument; every posted action and envelope, well formed or not", "why_tests_cant": "All messages with all arguments, and all envelopes an attacker may send.", "anchors": ["opennsa/protocols/nsi2/requesterclient.py:RequesterClient", "opennsa/protocols/nsi2/providerservice.py:ProviderService", "opennsa/protocols/nsi2/providerclient.py:ProviderClient", "opennsa/protocols/nsi2/requesterservice.py:RequesterService", "opennsa/protocols/shared/soapresource.py:SOAPResource", "opennsa/protocols/nsi2/helper.py:parseRequest"]}
{"id": "C82", "title": "What is recorded in the database is what was requested", "statement": "Whatever texts a request contains (quotation marks, backslashes, commas, brackets), the statement made of them is read by the server as exactly the values of the request, one per column. A reservation, segment or backend connection whose values the schema allows is recorded as one new row, and reading the row yields the values again; it is refused exactly if the schema does not allow it (missing requester, start not before end, unknown direction, capacity beyond 32 bits, connection id in use). A request that passes the checks of the SOAP service is recordable.", "quantifier": "every request, header, connection id, time and table content", "why_tests_cant": "All texts an attacker may put into a message, including those that break out of a quotation.", "anchors": ["opennsa/database.py:adaptLabel", "opennsa/database.py:adaptSecuritAttribute", "opennsa/database.py:adaptDatetime", "opennsa/database.py:LabelComposite", "datafiles/schema.sql", "opennsa/aggregator.py:Aggregator.reserve", "opennsa/aggregator.py:Aggregator.reserveConfirmed", "opennsa/backends/common/genericbackend.py:GenericBackend.reserve"]}
{"id": "C83", "title": "A connection is recorded, passed on, confirmed and reported as it was requested", "statement": "A reservation that a peer requests is read back from the database as the connection that was requested: identifiers, requester, ports, labels, times, capacity, direction and symmetry. The request for each segment arrives at its provider with the identifiers, times, capacity, direction and symmetry of the reservation, made in the name of this agent, with the attributes of the requester and a trace with one more entry. The confirmation, the record of the backend and the result of each query arrive with the same values and the labels that were chosen.", "quantifier": "every request, header, port, label, connection id, time and table content; every list of connections", "why_tests_cant": "All requests with all values, through message, database and message again.", "anchors": ["opennsa/aggregator.py:Aggregator.reserve", "opennsa/aggregator.py:Aggregator.reserveConfirmed", "opennsa/aggregator.py:Aggregator.querySummary", "opennsa/aggregator.py:Aggregator.queryRecursive", "opennsa/backends/common/genericbackend.py:GenericBackend.reserve", "opennsa/backends/common/genericbackend.py:GenericBackend.querySummary", "opennsa/protocols/nsi2/providerservice.py:ProviderService.reserve", "opennsa/nsa.py:Point2PointService"]}
{"id": "C84", "title": "The device is told sensible things, and holds exactly the active connections", "statement": "Throughout the history of a backend (requests, scheduled calls, waiting, restarts), as long as no link is set up while another one is up and one of the two connections is past its end: a link is set up only if it is not up and has no resource in common with a link that is up, and torn down only if it is up; each event other than a restart makes at most one such operation, and sets up no link before the start of its connection. This is so for every connection for which no device operation failed, whatever failed for others; its link is set up and torn down in turn. Without failures, the configuration of the device is then what it was at first together with that of the connections recorded as active, and nothing else (Juniper EX, Juniper VPLS, Brocade, Pica8).", "quantifier": "every history of completed events, every configuration, every initial configuration of the device that the connections do not touch", "why_tests_cant": "All interleavings of connections, timers and restarts, together with what the commands for each of them leave on the device.", "anchors": ["opennsa/backends/common/genericbackend.py:GenericBackend.buildSchedule", "opennsa/backends/common/genericbackend.py:GenericBackend._doActivate", "opennsa/backends/common/genericbackend.py:GenericBackend._doTeardown", "opennsa/backends/juniperex.py:JuniperEXConnectionManager", "opennsa/backends/junipervpls.py:JuniperVPLSConnectionManager", "opennsa/backends/brocade.py:BrocadeConnectionManager", "opennsa/backends/pica8ovs.py:Pica8OVSConnectionManager"]}
{"id": "C85", "title": "A port is used only by those its rules admit", "statement": "A request over SOAP leads to calls exactly if it comes from someone who may make requests (a host of the access list; without list, plain HTTP or a certificate). In each call of a backend made for it, a port is granted exactly if it has no rules, or one met by an attribute of the request's header or by the common name of its certificate; however many aggregators it passes, the attributes stay those of the first requester. A link is up only for a connection whose reservation, commit and provision were each asked for by someone entitled to both ports. Access is granted over REST by the same rules, and the undoing of a partly failed reservation is never refused.", "quantifier": "every request, certificate, access list, set of rules, chain of aggregators, and interleaving of requests in the backend", "why_tests_cant": "The decision depends on the certificate, the message and the rules together, over every path from the HTTP request to the device; attributes and host names are unbounded texts.", "anchors": ["opennsa/authz.py:isAuthorized", "opennsa/protocols/shared/soapresource.py:SOAPResource.render_POST", "opennsa/protocols/shared/requestauthz.py:checkAuthz", "opennsa/aggregator.py:Aggregator.reserve", "opennsa/protocols/rest/resource.py:P2PBaseResource.render_POST", "opennsa/backends/common/genericbackend.py:GenericBackend._authorize", "opennsa/shared/requestinfo.py:RequestInfo"]}
{"id": "C86", "title": "What the requester is told has happened at the backends", "statement": "An aggregator with local backends: when the requester is told that a connection is reserved, each backend that was asked for a segment has stored a connection with the ports, times and one of the labels asked for, in the name of the agent, and the source label told is the one stored first; when the requester is told that a request is done, every backend with a segment of the connection has been asked the same for that segment; when the requester is told that the data plane is active, every such backend has been asked to provision its segment.", "quantifier": "every configuration of the aggregator and of any number of backends, every message and device operation, every interleaving of the handlers of the aggregator and of the operations of the backends, restarts of either", "why_tests_cant": "Two state machines with queues between them: confirmations may arrive in any order, late, more than once, or after a restart of one side; the pairing of segments with stored connections has to survive all of it.", "anchors": ["opennsa/aggregator.py:Aggregator.reserve", "opennsa/aggregator.py:Aggregator.reserveConfirmed", "opennsa/aggregator.py:Aggregator.provisionConfirmed", "opennsa/aggregator.py:Aggregator.dataPlaneStateChange", "opennsa/backends/common/genericbackend.py:GenericBackend.reserve", "opennsa/backends/common/genericbackend.py:GenericBackend.provision"]}
{"id": "C87", "title": "The segments of a confirmed connection fit together", "statement": "When the requester is told that a connection over several backends is reserved, the two backends at a demarcation point have stored the same label for its two sides.", "quantifier": "every configuration of the aggregator and of its backends, every history", "why_tests_cant": "Which label a backend takes depends on all reservations that it holds at the time; in a fresh system the backends agree by chance.", "anchors": ["opennsa/aggregator.py:Aggregator.reserve", "opennsa/aggregator.py:Aggregator.reserveConfirmed", "opennsa/backends/common/genericbackend.py:GenericBackend.reserve"]}
{"id": "C88", "title": "A provisioned connection is up from its start to its end", "statement": "A live connection that is committed and provisioned is up exactly while its start time has come and its end time has not; at its end time a committed connection is over and its link is down. To this end the call that is needed next (activation or end) is always scheduled, also after restarts, releases and repeated provisioning.", "quantifier": "every configuration, every sequence of requests, calls of the scheduler, waits and restarts, every choice of times and every behaviour of the device", "why_tests_cant": "Whether a connection ends depends on every earlier operation having left the right call in the scheduler, in whichever order commit, provision, release, start, end and restart come; the tests of the project use a handful of orders.", "anchors": ["opennsa/backends/common/genericbackend.py:GenericBackend.buildSchedule", "opennsa/backends/common/genericbackend.py:GenericBackend.reserveCommit", "opennsa/backends/common/genericbackend.py:GenericBackend.provision", "opennsa/backends/common/genericbackend.py:GenericBackend.release", "opennsa/backends/common/genericbackend.py:GenericBackend._doActivate", "opennsa/backends/common/genericbackend.py:GenericBackend._doEndtime", "opennsa/backends/common/scheduler.py:CallScheduler.scheduleCall"]}
{"id": "C89", "title": "Recovery after the process died", "statement": "Whatever operations were under way when the process died, after the next start every stored connection is dealt with: one that was terminated or has ended has no link and no entries in the calendar, a live one has its entries and the call it needs next, and a reservation that timed out or was aborted does not keep its resources.", "quantifier": "every configuration, every content of the database, every point at which the process may die, every behaviour of the device", "why_tests_cant": "A test restarts a quiet system. The states in which things go wrong exist only between two writes of one operation, and must be combined with the position of a connection in the list of stored ones and with the times.", "anchors": ["opennsa/backends/common/genericbackend.py:GenericBackend.buildSchedule", "opennsa/backends/common/genericbackend.py:GenericBackend.terminate", "opennsa/backends/common/genericbackend.py:GenericBackend.release", "opennsa/backends/common/genericbackend.py:GenericBackend._doReserveTimeout", "opennsa/backends/common/genericbackend.py:GenericBackend._doEndtime"]}
{"id": "C90", "title": "What requesters are told has causes", "statement": "Whatever the aggregator tells a requester about a connection was caused by what it was told before: a confirmation was preceded by the request, by a confirmation for a segment of this connection, and by confirmations for every other stored segment; the data plane of a connection is said to be active only after that of each segment was; reserveConfirmed comes after every reserve call made for the connection was answered by the provider it was sent to, reserveFailed after one of them failed; timeouts and errors come from a segment of the connection.", "quantifier": "every configuration, every interleaving of the handlers of any messages, also repeated, reordered and forged ones, with restarts of the process anywhere", "why_tests_cant": "A test runs one order of replies. The cause of a message is found by looking at the whole history, and the handlers read states that other handlers, running in between, may have changed through other objects for the same row.", "anchors": ["opennsa/aggregator.py:Aggregator.reserveConfirmed", "opennsa/aggregator.py:Aggregator.reserveFailed", "opennsa/aggregator.py:Aggregator.provisionConfirmed", "opennsa/aggregator.py:Aggregator.releaseConfirmed", "opennsa/aggregator.py:Aggregator.terminateConfirmed", "opennsa/aggregator.py:Aggregator.dataPlaneStateChange", "opennsa/aggregator.py:Aggregator.errorEvent"]}
{"id": "C91", "title": "From the request on the wire to the device and back", "statement": "Every confirmation that leaves an agent is sent to the reply address and with the correlation id of one request received before, which asked for what is confirmed and of that connection; for a reservation the connection was made for the requester of that request. No request is confirmed twice. What is confirmed has happened: the aggregator told so after the request, and the local backends were asked for it by the aggregator. Who asked for an operation that is carried out is told.", "quantifier": "every configuration, any number of requesters and requests, every interleaving of the handlers of the aggregator and the operations of the backends, restarts anywhere", "why_tests_cant": "Three components and the scheduler decide together whether a confirmation finds its request: the answer to the request, the confirmations of the providers and other requests for the same connection race with each other. A test fixes one order.", "anchors": ["opennsa/protocols/nsi2/provider.py:Provider.reserve", "opennsa/protocols/nsi2/provider.py:Provider.reserveConfirmed", "opennsa/protocols/nsi2/provider.py:Provider.provision", "opennsa/protocols/nsi2/provider.py:Provider.provisionConfirmed", "opennsa/aggregator.py:Aggregator.reserve", "opennsa/aggregator.py:Aggregator.reserveConfirmed"]}
{"id": "C92", "title": "Connections to devices: only to the configured host, with the configured credentials, and the outcome is told", "statement": "User name, password, signatures and commands are sent only to a host that has proven to hold a key with the configured fingerprint; the credentials are those configured, and a password is never sent where keys are configured. A backend that asks for a connection is told once whether it has one: it gets it if the host is reachable, has the configured key and accepts the user, and an error otherwise. A call that makes its own connection closes it when it is over. Every configuration the constructors read gives a working backend.", "quantifier": "every configuration, every order of the events of the network and of the host (reachable or not, any key shown, any methods of authentication asked for, refusals, losses of the connection)", "why_tests_cant": "The tests have no device; what matters is that no order of events leads to a secret being sent to another host, and that no order leaves a call without outcome.", "anchors": ["opennsa/backends/common/ssh.py:SSHClientTransport.verifyHostKey", "opennsa/backends/common/ssh.py:SSHConnectionCreator.createTCPConnection", "opennsa/backends/common/ssh.py:SSHConnectionCreator.getSSHConnection", "opennsa/backends/brocade.py:BrocadeCommandSender.sendCommands", "opennsa/backends/force10.py:Force10ConnectionManager.__init__", "opennsa/backends/force10.py:Force10CommandSender.sendCommands", "opennsa/backends/pica8ovs.py:Pica8OVSCommandSender._sendCommands"]}
{"id": "C93", "title": "A connection goes through its life", "statement": "An accepted reservation request makes a new connection for which each link of the chosen path was asked for exactly once, of the right provider and with the requested times and bandwidth. When every segment is confirmed, in whatever order, the requester is told so, once and not before, and the connection and its segments are held. From then on every accepted commit, abort, provision, release or terminate is passed on to every segment exactly once, and when every segment has confirmed it, in whatever order, the requester is told so, once and not before; connection and segments agree then again. So the requester of a connection led through any series of requests has been sent exactly the confirmations of these requests, in their order.", "quantifier": "every configuration, any other connections and messages before and in between, every order of the confirmations, restarts anywhere but during the reservation; messages are handled one after the other, correlation ids and segment ids are not reused", "why_tests_cant": "A test drives one connection of a few segments through one order of messages. Here the number of segments, the order, the series of requests and everything that happens to other connections in between are arbitrary.", "anchors": ["opennsa/aggregator.py:Aggregator.reserve", "opennsa/aggregator.py:Aggregator.reserveConfirmed", "opennsa/aggregator.py:Aggregator.reserveCommit", "opennsa/aggregator.py:Aggregator.reserveCommitConfirmed", "opennsa/aggregator.py:Aggregator.provision", "opennsa/aggregator.py:Aggregator.provisionConfirmed", "opennsa/aggregator.py:Aggregator.release", "opennsa/aggregator.py:Aggregator.releaseConfirmed", "opennsa/aggregator.py:Aggregator.terminate", "opennsa/aggregator.py:Aggregator.terminateConfirmed"]}
{"id": "C94", "title": "A connection is served independently of the others", "statement": "While the messages about one connection and its segments are handled one at a time, messages about other connections (reservations included, and queries that do not select it) may be handled at the same time, in any interleaving. Whenever no message about the connection is being handled, its row, the rows of its segments, what has been sent about it and the answers to the messages about it are as if those messages had been handled alone, in a system without any other connection. While only messages about others are handled, nothing about it changes at any moment. So the requester of a connection led through a series of accepted requests, each confirmed by all segments, has been sent exactly the confirmations of these requests, in order and not too early, and connection and segments end in the states requested.", "quantifier": "every configuration, every reachable state with no handler running in which the segments of the connection have ids of their own (after any restart: if segment ids are distinct), every number of other connections and messages about them, every interleaving of the handlers at their waiting points, all answers of the providers", "why_tests_cant": "The interleavings of handlers that wait for the database and for providers are far too many to test; here a handler of a message about the connection is compared, command by command, with the same handler run alone, with anything done by others in between.", "anchors": ["opennsa/aggregator.py:Aggregator.getConnection", "opennsa/aggregator.py:Aggregator.getConnectionByKey", "opennsa/aggregator.py:Aggregator.getSubConnection", "opennsa/aggregator.py:Aggregator.reserveCommit", "opennsa/aggregator.py:Aggregator.reserveCommitConfirmed", "opennsa/aggregator.py:Aggregator.provisionConfirmed", "opennsa/aggregator.py:Aggregator.terminateConfirmed", "opennsa/aggregator.py:Aggregator.dataPlaneStateChange", "opennsa/aggregator.py:Aggregator.doTimeout"]}
{"id": "C95", "title": "Messages are valid against the schema", "statement": "Every request, reply, notification and acknowledgement that is sent, and every SOAP fault, is valid against the schema of the connection service: the envelope and header, the elements in the order of the standard, each as often as allowed, with the attributes and the types of the standard; and it carries the SOAP action of its operation. A valid request that is passed on to providers is sent to them as a valid request. Every valid request can be read.", "quantifier": "every call of a client with states, directionality and events of the standard, and versions that are numbers; every header; every error; query results nested to any depth", "why_tests_cant": "Tests send messages from OpenNSA to OpenNSA, which agree on their own mistakes. Here what is sent is compared with the types of the standard, for all arguments and all optional parts.", "anchors": ["opennsa/protocols/nsi2/bindings/nsiconnection.py", "opennsa/protocols/nsi2/bindings/nsiframework.py", "opennsa/protocols/nsi2/bindings/p2pservices.py", "opennsa/protocols/nsi2/requesterclient.py", "opennsa/protocols/nsi2/providerclient.py", "opennsa/protocols/nsi2/queryhelper.py", "opennsa/protocols/nsi2/helper.py", "opennsa/protocols/shared/minisoap.py"]}
{"id": "C96", "title": "Published documents follow their formats", "statement": "At any time the discovery document of a running service has the form of the discovery schema (elements, order, at least one interface, proper times and URNs), it names the interfaces with the names of the standard, and the topology of each of its networks has the form of NML: tags, relation and label types of the standard, ids that are URNs, labels as ranges of numbers, label swapping as the backend says. Everything a topology names is declared in it: the two directions of each port as inbound and outbound, and the service definition.", "quantifier": "every port map that is accepted, every configuration with which a service starts, all documents of peers received since", "why_tests_cant": "Tests compare the document of one sample map with itself after parsing. What other agents rely on is the form for every map and the consistency of references, also after any sequence of documents of peers.", "anchors": ["opennsa/topology/nmlxml.py", "opennsa/topology/nml.py", "opennsa/discovery/service.py", "opennsa/discovery/bindings/discovery.py", "opennsa/setup.py", "opennsa/constants.py"]}
{"id": "C97", "title": "Command line: what a query prints is what the provider has", "statement": "For every answer to a query, summary or recursive, the command line tool prints each connection of the answer once, in order, with id, provider, global id, description, states, data plane, times, ends, bandwidth and direction, and below it each of its segments once, indented by its depth, with id, provider, states and ends; it prints nothing else and does not fail. What is printed is what the provider put into its answer.", "quantifier": "all answers of any number of connections, with trees of segments of any depth and width", "why_tests_cant": "There are no tests of the output. The printer is recursive over trees of any shape, and a segment that is left out or shown at the wrong place is only visible for particular shapes.", "anchors": ["opennsa/cli/commands.py", "opennsa/protocols/nsi2/queryhelper.py", "opennsa/nsa.py"]}
{"id": "C98", "title": "Devices read exactly the commands", "statement": "For every connection and every pair of ends that is accepted, the text that a device backend sends to set up or take down the connection consists of exactly the configuration lines that the connection calls for, with the names of ports, units, VLANs and LSPs filled in, each on its own line; for OESS, of exactly the requests, with their parameters. The device, which splits the text into lines, reads exactly these commands in this order: none of the filled in values can add, cut or merge commands.", "quantifier": "all connection ids, ports, labels, routers and configurations whose names are single lines; all device backends that send command lines, and OESS", "why_tests_cant": "There are no tests of the device backends. The texts are put together from templates and names from configuration and requests, so that a wrong separator or a name with a line break shows only for particular values and only on the device.", "anchors": ["opennsa/backends/junosmx.py", "opennsa/backends/junosex.py", "opennsa/backends/juniperex.py", "opennsa/backends/junipervpls.py", "opennsa/backends/brocade.py", "opennsa/backends/pica8ovs.py", "opennsa/backends/force10.py", "opennsa/backends/oess.py"]}
{"id": "C99", "title": "Backend: reports of the data plane and answers to queries are true", "statement": "In every execution of a backend, however requests, scheduled calls, database, device and parent operations are interleaved, fail, are cancelled, or are cut short by restarts: a data plane is reported and stored as active only for a connection whose link was set up on the device before, and reported as inactive only if its link was up and then no more. At any moment a query for connection ids is answered with exactly the connections among them that the same requester reserved, each once, with the ends, times and states as stored; no requester is shown a connection of another.", "quantifier": "all configurations, schedules of any length with any choices of the environment, requesters and lists of connection ids", "why_tests_cant": "Whether a data plane is reported truthfully depends on what other operations do to the same connection between the call of the device and the report. Tests run operations one after the other on a device that never fails, and there are no tests of queries by requesters other than the one that reserved.", "anchors": ["opennsa/backends/common/genericbackend.py:521-567", "opennsa/backends/common/genericbackend.py:652-735", "datafiles/schema.sql:78-104"]}
{"id": "C100", "title": "Database of networks: lookups, the other side of a port, paths", "statement": "The database of networks finds exactly what was put in: a network is added only if there is none with its id, replaced as a whole with its agent on update, and no operation changes what is found for other ids; a port is found exactly if a network has it. In a database of published networks the other side of a port is the port that faces it, whatever other networks there are, and whatever is given as the other side is a port of both directions whose directions are those the port leads to. Between STPs that exist and match, paths are found.", "quantifier": "all databases, networks, ports, ids and STPs", "why_tests_cant": "The tests of this part are skipped, and the ids of ports in different networks and directions are texts made of names: only reasoning over all names shows that no id of another network or direction is taken for the one that is searched.", "anchors": ["opennsa/topology/nml.py:39-40", "opennsa/topology/nml.py:98-114", "opennsa/topology/nml.py:146-275"]}
{"id": "C101", "title": "TLS: whom the service trusts", "statement": "As a client the service talks only to servers whose certificate is valid, is for the host of the URL and comes from an authority in the directory of certificates. As a server with a list of hosts it admits only clients that hold a valid certificate of such an authority with a common name on the list. Both directions trust the same authorities. A configuration with TLS that is accepted has a key and a certificate, and listening does not fail where making the context succeeds.", "quantifier": "all directories, files, settings, certificates, hosts and versions of the protocol", "why_tests_cant": "There are no tests with TLS; that no certificate of another authority and no directory makes a difference can only be shown over all of them.", "anchors": ["opennsa/opennsaTlsContext.py:25-156", "opennsa/setup.py:100-113", "opennsa/setup.py:346-356", "opennsa/protocols/shared/soapresource.py:51-85"]}
{"id": "C102", "title": "Page of connections", "statement": "The page of connections is made for every content of the database and shows each connection once and in order, with its id, lifecycle state, source, destination, start and end time below the titles of the columns, and nothing else.", "quantifier": "all lists of connections, with all names, labels, states and times", "why_tests_cant": "There are no tests of the page; names and labels are any texts, and what a reader is shown depends on every character of them.", "anchors": ["opennsa/viewresource.py:ConnectionListResource.renderPage", "opennsa/viewresource.py:15-87"]}

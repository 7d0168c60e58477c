#!/usr/bin/env python3
"""Writes DESIGN.md: the text below, with the table of properties taken from MANIFEST.json and properties.jsonl."""
import json, os, re, glob
root = os.path.dirname(os.path.dirname(os.path.abspath(__file__)))
where = {}
for f in glob.glob(root + '/lean/Verif/**/*.lean', recursive=True):
    for m in re.finditer(r'^(?:private |protected )?(?:theorem|lemma)\s+([^\s:({\[]+)', open(f).read(), re.M):
        where.setdefault(m.group(1), os.path.relpath(f, root + '/lean/Verif'))
props = [json.loads(l) for l in open(root + '/properties.jsonl')]
claims = {c['property']: c for c in json.load(open(root + '/MANIFEST.json'))['claims']}
HOW = {
 'C01': 'pointwise effect of `set_values`/`get_values` on the cells of a block list', 'C02': 'witness history; invariant over the histories where it holds',
 'C03': 'case analysis of `add_block`, exact condition of every error', 'C04': 'invariant "blocks of a list start at different addresses"',
 'C05': 'refinement of `handle_request` to the abstract tables of `Spec/Modbus.lean` (`handler_refines`)', 'C06': 'same refinement', 'C07': 'same refinement',
 'C08': 'same refinement', 'C09': 'same refinement', 'C10': 'bitwise lemmas on integers; witness for signed slaves', 'C11': 'same refinement; witness for the order of read and write',
 'C12': 'frame analysis of every handler for arbitrary bytes', 'C13': 'case analysis over arbitrary requests', 'C14': 'frame analysis, for any layout and any history; witness for truncated payloads and their exact effect',
 'C15': 'invariant over histories', 'C16': 'shape invariant over arbitrary requests', 'C17': 'frame analysis per table', 'C18': 'separation invariant over histories (`WorldInv`)',
 'C19': 'map laws over histories', 'C20': 'induction over the slaves', 'C21': 'case analysis', 'C22': 'case analysis over arbitrary bytes; witnesses',
 'C23': 'algebra of `struct`', 'C24': 'iff over all byte strings', 'C25': 'iff over all byte strings', 'C26': '256-entry table by kernel evaluation, lifted to all bytes by xor-linearity, to all strings by induction',
 'C27': 'linear algebra over GF(2)', 'C28': 'induction over queries; all interleavings', 'C29': 'history invariant over rounds of the server loop',
 'C30': 'induction over the byte stream', 'C31': 'induction over chunks', 'C32': 'witnesses; induction for the rest', 'C33': 'composition of master, framing, databank and slave',
 'C34': 'same composition, programs of calls by induction', 'C35': 'iff between result and response', 'C36': 'case analysis', 'C37': 'witness; what does hold',
 'C38': 'case analysis over the 14 functions', 'C39': 'length of the response of the specification', 'C40': 'progress measure; witness of a loop',
 'C41': 'lock discipline => atomic executions, over all schedules', 'C42': 'linearizability with real-time order, over all schedules', 'C43': 'witness schedule; ordering of locks',
 'C44': 'induction over registries', 'C45': 'congruence of every function in the registry', 'C46': 'case analysis', 'C47': 'history invariant; witness',
 'C48': 'invariants of a transition system; witness schedules', 'C49': 'induction over arrivals', 'C50': 'histories of calls over three transports',
 'C51': 'induction over lines', 'C52': 'per command', 'C53': 'decimal round trip; exact limit; witnesses', 'C54': 'invariants of a transition system', 'C55': 'injectivity of the text',
 'C56': 'arithmetic', 'C57': 'composition with C34; witness', 'C58': 'invariant; witness schedules', 'C59': 'invariant and variant of a transition system; witness schedules',
 'C60': 'simulation of masters, sockets, server loop and databank', 'C61': 'linearizability over several locks; product of transition systems', 'C62': 'algebra of `struct`, composition with C34',
 'C63': 'invariant of the life of a server', 'C64': 'induction over the line', 'C65': 'case analysis', 'C66': 'per method; witness', 'C67': 'simulation of two-step requests by the many-locks linearizability; merging halves in the history; witnesses',
 'C68': 'case analysis over all byte strings', 'C69': 'per handler; computation on the heap', 'C70': 'induction over the calls; per call: one speaker, everybody hears',
 'C72': 'history invariant over a model with a clock',
 'C111': 'the transition system of C54 with interruptions as further events; its invariants are preserved; induction over executions',
 'C110': 'the transition system of C48 with interruptions and SystemExit as further events; the invariant of C48 is preserved by them; induction over executions',
 'C109': 'a call as a list of actions, of which a prefix is done (tied to Model/Slave by C109_complete); case analysis over the prefixes, induction over the tables',
 'C108': 'C34_either for every call; induction over the calls against a specification of the lines (specProgram)',
 'C107': 'the run with a log projects to the run of Model/Worker (simulation, induction over the events); invariant LWInv for the line and the end of the thread',
 'C106': 'composition of C32 (reading to the expected length), C39, C25 and the handlers; invariant `Reached` over the calls',
 'C105': '`Beyond` (the run with a log is the run without it, plus lines); invariant `Deaf` over all calls; induction over the sockets',
 'C104': 'invariants of the transition systems of C103 with interrupts; witness',
 'C103': 'invariants of two transition systems; witness schedules; computation from an arbitrary state',
 'C102': 'simulation of any number of masters by one; induction over the operations of masters that take a closed port for open',
 'C101': 'invariant over histories (`Loose`); each function from it',
 'C100': 'the reply pdu of the slave is carried through both framings (C24, C25), then C81; replies are analysed via a memory that would give them',
 'C99': 'create_logger, the handlers and Logger.callHandlers are modelled (Model/LogHandlers.lean); induction over the calls and over the handlers; the logged models of C90, C96-C98 depend on the handler only at ASCII lines (congruence), then C90_master, C97_calm, C98_calm',
 'C98': 'RtuServer._do_run and Server._run_server are modelled again with their log lines (Model/LoggedRtu.lean); simulation with the unlogged server (Beyond), case analysis of every line for failing logs, memory via C96_memory',
 'C97': 'TcpServer and Server._run_server are modelled again with their log lines (Model/LoggedServer.lean); simulation with the unlogged server (Beyond), invariant SrvInv over all rounds for failing logs, locality of every step (OnlyThis)',
 'C96': 'the handlers of the requests are modelled again with their log lines (Model/Logged.lean) over a state with the lines written and a handler that may raise; simulation with the unlogged functions, handler by handler (Reads, Follows, Beyond)',
 'C95': 'Databank.handle_request and Server._handle over a state of heap, databank and program, on top of the acting slave hooks of C86; simulation with a reflexive transitive relation on the program; witness for the broadcast',
 'C94': 'Model/SlaveExample.lean is the loop of the two programs with the lines unstripped; the commands are compared with the API calls as in C52, the loop by induction over the lines with arbitrary work of the server threads in between',
 'C93': 'custom commands on the model of the simulator (Examples); equality with the API calls, induction over reachable states; arithmetic of the counter of the monitor by induction over calls',
 'C92': 'routes of the web interface over a database of rows (WebHmi), composed with C34; invariant linking the master objects to the rows; induction over histories and over the lines of the template',
 'C91': 'execute with hooks that get execute (MasterHooks); induction over adaptive programs of calls, composition with C34; transaction ids tell the responses apart',
 'C90': 'execute and _handle with log calls (Verbose), a complete case distinction of what a verbose call can come to, compared with the models without log',
 'C89': 'transition system of three threads and two queues (SimLife), invariants by induction on the execution; closing by explicit runs',
 'C88': 'event log of the transport; idempotence of Spec.exec by cases on the request; a link with a list of faults around the end-to-end model, induction on the number of attempts',
 'C87': 'a model of struct with format texts; induction over the text; simulation of the call with texts by the call with integer formats; execute cut into preparation, exchange and analysis',
 'C86': 'handlers generic in the hooks: each is the call of its hooks followed by a part without; simulation by projection to the memory; loop invariant over the cells of a write; induction over the requests',
 'C85': 'handlers generic in the cells; simulation of the object slave by integer slaves under all numberings, which determine the objects',
 'C84': 'composition of the clocked server (C74) and master (C72): what remains on the connections is tracked; induction over the errands',
 'C83': 'The counter of transaction ids advances by at most one per operation (invariant over histories) and C24 (a response is accepted only with the id of its request); for RTU, what is received is a prefix of what arrives after the flush; two concrete runs for the negative part.',
 'C82': 'The sender does not see how much was taken, so the server model gets, as its input, the concatenation of arbitrary prefixes of the messages; comparability of two splittings of one stream into frames; a concrete run for the negative part.',
 'C81': 'case analysis per function code; the position of the block is unchanged by writes; invariant over histories; witness',
 'C80': 'forward simulation with a prophecy of the environment, hooks arbitrary; composition lemmas for the monad, induction over the program',
 'C79': 'forward simulation, hooks arbitrary; composition lemmas for the monad, induction over rounds and histories',
 'C78': 'composition of C76 and C77, induction over the program; witness',
 'C77': 'induction over the reads with arrival times, the frames by induction; witness',
 'C76': 'induction over the reception with arrival times; witness',
 'C75': 'forward simulation; arrivals and silences chosen along the run; history invariant',
 'C74': 'history invariant with a clock; variant: the position among the watched sockets; witness',
 'C73': 'potential argument on waiting; witnesses',
 'C71': 'per handler; history invariant; witnesses',
}
HOW.update(json.load(open(root + '/tools/how.json')) if os.path.exists(root + '/tools/how.json') else {})
rows = []
for p in props:
    c = claims[p['id']]
    ths = [t.replace('Modbus.', '') for t in c['theorems']]
    files = sorted({where.get(t, '?') for t in ths})
    rows.append(f"| {p['id']} | {p['title']} | {c['status']} | {HOW.get(p['id'], '')} | {', '.join('`'+t+'`' for t in ths)} ({', '.join(files)}) |")
text = open(root + '/tools/design_head.md').read()
open(root + '/DESIGN.md', 'w').write(text.replace('@TABLE@', '\n'.join(rows)))

import Verif.Props.Wrong
/-
The repository's own tests as a check of the model: the fixture of those tests, and what they look at. The other modules here are generated from the
tables of the tests and state that the model passes them. These are tests of the model, not proofs of claims.
-/
namespace Traverse.Conform

/-- A file and a directory without faults. -/
def file_ (n : String) : FS := .file n none none
def dir_ (n : String) (k : List FS) : FS := .dir n none none k

/-- filepath.Match for patterns whose only special character is `*`. -/
def star : List Char → List Char → Bool
  | [] => fun ns => ns.isEmpty
  | p :: ps => if p == '*' then go (star ps) else fun ns => match ns with | [] => false | n :: ns => (p == n) && star ps ns
where
  go (k : List Char → Bool) : List Char → Bool
    | [] => k []
    | n :: ns => k (n :: ns) || (n != '/' && go k ns)

/-- Whether `p` occurs in the text. -/
def occurs (p : List Char) : List Char → Bool
  | [] => p.isEmpty
  | n :: ns => p.isPrefixOf (n :: ns) || occurs p ns

/-- Go's library, as far as the patterns of the tests need it. -/
def engine : Engine where
  glob p n := star p.toList n.toList
  compiles p := p != "("
  regex p n :=
    if p == "[iI]" then occurs ['i'] n.toList || occurs ['I'] n.toList
    else if p == "\\.flac" then occurs ".flac".toList n.toList
    else if p == "\\.flac$" then ".flac".toList.isSuffixOf n.toList
    else if p == "\\.txt$" then ".txt".toList.isSuffixOf n.toList
    else match p.toList with
      | '^' :: p => p.isPrefixOf n.toList
      | p => occurs p n.toList
  lower s := String.ofList (s.toList.map Char.toLower)
  trim s := String.ofList ((s.toList.dropWhile (· == ' ')).reverse.dropWhile (· == ' ')).reverse

/-- A sort that is quick to evaluate. -/
def below : List Nat → List Nat → Bool
  | _, [] => false
  | [], _ :: _ => true
  | a :: as, b :: bs => Nat.blt a b || (Nat.beq a b && below as bs)
def put (k : List Nat) (t : Tree) : List (List Nat × Tree) → List (List Nat × Tree)
  | [] => [(k, t)]
  | a :: as => if below a.1 k then a :: put k t as else (k, t) :: a :: as
def sortKeyed (key : String → String) (l : List Tree) : List Tree :=
  ((l.map (fun t => ((key t.name).toList.map Char.toNat, t))).foldr (fun p acc => put p.1 p.2 acc) []).map Prod.snd

def platform : Platform Nat where
  cpus := 4
  engine := engine
  sortSlice := sortKeyed
  save k _ := (k, .saved "dest")

/-- customFilter of filtering-suite_test.go:19-63. -/
def own (pattern : String) (scope : Scope) (negate : Bool) : CustomFilter where
  isMatch v := some (
    let s := if scope = 0#32 then Scope.all else scope
    if (s &&& v.scope) = 0#32 then false else engine.glob pattern v.name != negate)

/-- customSamplingFilter of sampling-suite_test.go:19-43, with Sample.Matching and NewCustomSampleFilter of sample.go:115-132. -/
def ownSample (pattern : String) (scope : Scope) : CustomSample where
  matching := ownMatching scope (fun e => engine.glob pattern e.name)

/-! ### The fixture: test/data/musico-index.xml as hanno.Nuxx puts it into a fstest.MapFS, by the portions of each test; names in byte order. -/

/-- hanno.Nuxx(verbose, "RETRO-WAVE"). -/
def tree_retro : FS := dir_ "." [
  dir_ "RETRO-WAVE" [dir_ "Chromatics" [dir_ "Night Drive" [file_ "A1 - The Telephone Call.flac", file_ "A2 - Night Drive.flac", file_ "cover.night-drive.jpg",
    file_ "vinyl-info.night-drive.txt"]], dir_ "College" [dir_ "Northern Council" [file_ "A1 - Incident.flac", file_ "A2 - The Zemlya Expedition.flac",
    file_ "cover.northern-council.jpg", file_ "vinyl-info.northern-council.txt"], dir_ "Teenage Color" [file_ "A1 - Can You Kiss Me First.flac",
    file_ "A2 - Teenage Color.flac", file_ "vinyl-info.teenage-color.txt"]], dir_ "Electric Youth" [dir_ "Innerworld" [file_ "A1 - Before Life.flac",
    file_ "A2 - Runaway.flac", file_ "vinyl-info.innerworld.txt"]]]]
def disk_retro : Disk := fun p => if p.head? = some "." then diskOf [] tree_retro p else diskOf [] tree_retro ("." :: p)

/-- hanno.Nuxx(verbose, "RETRO-WAVE", "rock/metal"). -/
def tree_retroMetal : FS := dir_ "." [
  dir_ "RETRO-WAVE" [dir_ "Chromatics" [dir_ "Night Drive" [file_ "A1 - The Telephone Call.flac", file_ "A2 - Night Drive.flac", file_ "cover.night-drive.jpg",
    file_ "vinyl-info.night-drive.txt"]], dir_ "College" [dir_ "Northern Council" [file_ "A1 - Incident.flac", file_ "A2 - The Zemlya Expedition.flac",
    file_ "cover.northern-council.jpg", file_ "vinyl-info.northern-council.txt"], dir_ "Teenage Color" [file_ "A1 - Can You Kiss Me First.flac",
    file_ "A2 - Teenage Color.flac", file_ "vinyl-info.teenage-color.txt"]], dir_ "Electric Youth" [dir_ "Innerworld" [file_ "A1 - Before Life.flac",
    file_ "A2 - Runaway.flac", file_ "vinyl-info.innerworld.txt"]]],
  dir_ "rock" [dir_ "metal" [dir_ "HARD-METAL" [dir_ "Def Leppard" [dir_ "Hysteria" [file_ "01 - Women.flac", file_ "02 - Rocket.flac", file_ "03 - Animal.flac",
    file_ "04 - Love Bites.flac", file_ "back.jpg", file_ "cover.hysteria.jpg"], dir_ "On Through the Night" [file_ "01 - Rock Brigade.flac",
    file_ "02 - Hello America.flac", file_ "03 - Sorrow Is a Woman.flac", file_ "04 - It Could Be You.flac", file_ "cover.on-through-the-night.jpg"],
    dir_ "Pyromania" [file_ "01 - Rock! Rock! (Till You Drop).flac", file_ "02 - Photograph.flac", file_ "03 - Stagefright.flac", file_ "04 - Too Late for Love.flac",
    file_ "cover.pyromania.jpg"]], dir_ "Van Halen" [dir_ "1984" [file_ "01 - 1984.flac", file_ "02 - Jump.flac", file_ "03 - Panama.flac", file_ "04 - Top Jimmy.flac",
    file_ "cover.1984.jpg", file_ "vinyl-info.ORTOFON-2M-BLUE.SL1210.DJM500.BALANCE.REASON.SPINCLEAN.MAX-GAIN.txt"],
    dir_ "Van Halen" [file_ "01 - Runnin With The Devil.flac", file_ "02 - Eruption.flac", file_ "03 - You Really Got Me.flac", file_ "04 - Aint Talkin Bout Love.flac",
    file_ "cover.van halen.jpg", file_ "cover.van-halen.jpg", file_ "coverb.van halen.van halen.album.jpg", file_ "info.van halen.van halen.album.jpg",
    file_ "inside.van halen.van halen.album.jpg", file_ "tracklist.van halen.van halen.album.jpg", file_ "vinyl-info.ORTOFON-2M-BLUE.SL1210.DJM500.BALANCE.txt"]],
    dir_ "Whitesnake" [dir_ "1987 25th Anniversary Edition" [file_ "01 - Still Of The Night.flac", file_ "02 - Give Me All Your Love.flac", file_ "03 - Bad Boys.flac",
    file_ "04 - Is This Love.flac", file_ "cover.1987-25th-anniversary.jpg", file_ "vinyl-info.ORTOFON-2M-BLUE.SL1210.DJM500.BALANCE.txt"],
    dir_ "Slip Of The Tongue" [file_ "01 - Slip Of The Tongue.flac", file_ "02 - Judgement Day.flac", file_ "03 - Fool For Your Loving.flac",
    file_ "04 - Now Youre Gone.flac", file_ "back.jpg", file_ "cover.slip-of-the-tongue.jpg", file_ "vinyl-info.ORTOFON-2M-BLUE.SL1210.DJM500.BALANCE.txt"]]],
    file_ "_segments.def.infex.txt", dir_ "dark" [dir_ "HEAVY-METAL" [dir_ "Black Sabbath" [dir_ "Heaven and Hell" [file_ "01 - Neon Knights.flac",
    file_ "02 - Children of the Sea.flac", file_ "03 - Lady Evil.flac", file_ "04 - Heaven and Hell.flac", file_ "cover.heaven-and-hell.jpg",
    file_ "vinyl-info.ORTOFON-2M-BLUE.SL1210.DJM500.BALANCE.REASON.SPINCLEAN.MAX-GAIN.txt"], dir_ "Mob Rules" [file_ "01 - Turn Up The Night.flac",
    file_ "02 - Voodoo.flac", file_ "03 - The Sign Of The Southern Cross.flac", file_ "04 - E5150.flac", file_ "accuraterip.black sabbath.mob rules.report.txt",
    file_ "back.jpg", file_ "cover.mob-rules.jpg"]], dir_ "Iron Maiden" [dir_ "Killers" [file_ "01 - The Ides of March.flac", file_ "02 - Wrathchild.flac",
    file_ "03 - Murders in the Rue Morgue.flac", file_ "04 - Another Life.flac", file_ "cover.killers.jpg"], dir_ "Piece Of Mind" [file_ "01 - Where Eagles Dare.flac",
    file_ "02 - Revelations.flac", file_ "03 - Flight of Icarus.flac", file_ "04 - Die With Your Boots On.flac", file_ "cover.peace-of-mind.jpg",
    file_ "vinyl-info.ORTOFON-2M-BLUE.SL1210.DJM500.BALANCE.REASON.SPINCLEAN.MAX-GAIN.txt"], dir_ "Somewhere In Time" [file_ "01 - Caught Somewhere In Time.flac",
    file_ "02 - Wasted Years.flac", file_ "03 - Sea Of Madness.flac", file_ "04 - Heaven Can Wait.flac", file_ "cover.somewhere-in-time.jpg"],
    dir_ "The Number of the Beast" [file_ "01 - Invaders.flac", file_ "02 - Children of the Damned.flac", file_ "03 - The Prisoner.flac",
    file_ "04 - 22 Acacia Avenue.flac", file_ "cover.the-number-of-the-beast.jpg"]],
    dir_ "Mötley Crüe" [dir_ "Dr Feelgood" [file_ "1.01 - T.N.T. (Terror n Tinseltown).flac", file_ "1.02 - Dr. Feelgood.flac", file_ "1.03 - Slice of Your Pie.flac",
    file_ "1.04 - Rattlesnake Shake.flac", file_ "cover.dr-feelgood.jpg", file_ "vinyl-info.ORTOFON-2M-BLUE.SL1210.YAMAHA-AX-10.BALANCE.REASON.MAX-GAIN.txt"],
    dir_ "Shout at the Devil" [file_ "01 - In The Beginning.flac", file_ "02 - Shout at the Devil.flac", file_ "03 - Looks That Kill.flac", file_ "04 - Bastard.flac",
    file_ "MyTag.Motley Crue.Shout at the Devil.txt", file_ "cover.shout-at-the-devil.jpg",
    file_ "vinyl-info.ORTOFON-2M-BLUE.SL1210.DJM500.BALANCE.REASON.SPINCLEAN.MAX-GAIN.txt"], dir_ "Theatre of Pain" [file_ "01 - City Boy Blues.flac",
    file_ "02 - Smokin in the Boys Room.flac", file_ "03 - Louder Than Hell.flac", file_ "04 - Keep Your Eye on the Money.flac", file_ "cover.theatre-of-pain.jpg",
    file_ "vinyl-info.ORTOFON-2M-BLUE.SL1210.DJM500.BALANCE.REASON.SPINCLEAN.MAX-GAIN.txt"]],
    dir_ "Ozzy Osbourne" [dir_ "Bark At The Moon" [file_ "01 - Rock N Roll Rebel.flac", file_ "02 - Bark At The Moon.flac", file_ "03 - Youre No Different.flac",
    file_ "04 - Now You See It (Now You Dont).flac", file_ "cover.bark-at-the-moon.jpg",
    file_ "vinyl-info.ORTOFON-2M-BLUE.SL1210.DJM500.BALANCE.REASON.SPINCLEAN.MAX-GAIN.txt"], dir_ "Blizzard Of Ozz" [file_ "01 - I Dont Know.flac",
    file_ "02 - Crazy Train.flac", file_ "03 - Goodbye To Romance.flac", file_ "04 - Dee.flac", file_ "cover.blizzard-of-ozz.jpg",
    file_ "vinyl-info.ORTOFON-2M-BLUE.SL1210.DJM500.BALANCE.REASON.SPINCLEAN.MAX-GAIN.txt"], dir_ "The Ultimate Sin" [file_ "01 - The Ultimate Sin.flac",
    file_ "02 - Secret Loser.flac", file_ "03 - Never Know Why.flac", file_ "04 - Thank God For The Bomb.flac", file_ "cover.the-ultimate-sin.jpg",
    file_ "vinyl-info.ORTOFON-2M-BLUE.SL1210.DJM500.BALANCE.REASON.SPINCLEAN.MAX-GAIN.txt"]]],
    dir_ "THRASH-METAL" [dir_ "Megadeth" [dir_ "Peace Sells But Whos Buying" [file_ "01 - Wake Up Dead.flac", file_ "02 - The Conjuring.flac",
    file_ "03 - Peace Sells.flac", file_ "04 - Devils Island.flac", file_ "MyTag.Megadeth.Peace Sells...But Whos Buying.txt",
    file_ "cover.peace-sells-but-whos-buying.jpg", file_ "vinyl-info.ORTOFON-2M-BLUE.SL1210.DJM500.BALANCE.REASON.SPINCLEAN.MAX-GAIN.txt"],
    dir_ "Rust In Peace" [file_ "01 - Holy Wars...The Punishment Due.flac", file_ "02 - Hangar 18.flac", file_ "03 - Take No Prisoners.flac",
    file_ "04 - Five Magics.flac", file_ "cove.rust-in-peace.jpg", file_ "vinyl-info.ORTOFON-2M-BLUE.SL1210.DJM500.BALANCE.REASON.SPINCLEAN.MAX-GAIN.txt"],
    dir_ "So Far, So Good ... So What!" [file_ "01 - Into The Lungs Of Hell.flac", file_ "02 - Set The World Afire.flac", file_ "03 - Anarchy In The UK.flac",
    file_ "04 - Mary Jane.flac", file_ "cover.so-far-so-good-so-what.jpg", file_ "vinyl-info.ORTOFON-2M-BLUE.SL1210.DJM500.BALANCE.REASON.SPINCLEAN.MAX-GAIN.txt"]],
    dir_ "Metallica" [dir_ "Master of Puppets" [file_ "01 - Battery.flac", file_ "02 - Master of Puppets.flac", file_ "03 - The Thing That Should Not Be.flac",
    file_ "04 - Welcome Home (Sanitarium).flac", file_ "cover.master-of-puppets.jpg"], dir_ "Ride the Lightning" [file_ "01 - Fight Fire With Fire.flac",
    file_ "02 - Ride the Lightning.flac", file_ "03 - For Whom the Bell Tolls.flac", file_ "04 - Fade to Black.flac",
    file_ "accuraterip.metallica.ride the lightning.report.txt", file_ "cover.ride-the-lightning.jpg"], dir_ "The Black Album" [file_ "1.01 - Enter Sandman.flac",
    file_ "1.02 - Sad But True.flac", file_ "1.03 - Holier Than Thou.flac", file_ "2.01 - The Unforgiven.flac", file_ "cover.the-black-album.jpg",
    file_ "vinyl-info.ORTOFON-2M-BLUE.SL1210.YAMAHA-AX-10.BALANCE.REASON.SPINCLEAN.MAX-GAIN.txt"]],
    dir_ "Slayer" [dir_ "South of Heaven" [file_ "01 - South of Heaven.flac", file_ "02 - Silent Scream.flac", file_ "03 - Live Undead.flac",
    file_ "04 - Behind the Crooked Cross.flac", file_ "cover.south-of-heaven.jpg"]]], file_ "_segments.def.infex.txt"]]]]
def disk_retroMetal : Disk := fun p => if p.head? = some "." then diskOf [] tree_retroMetal p else diskOf [] tree_retroMetal ("." :: p)

/-- hanno.Nuxx(verbose, "RETRO-WAVE", "edm"). -/
def tree_retroEdm : FS := dir_ "." [
  dir_ "RETRO-WAVE" [dir_ "Chromatics" [dir_ "Night Drive" [file_ "A1 - The Telephone Call.flac", file_ "A2 - Night Drive.flac", file_ "cover.night-drive.jpg",
    file_ "vinyl-info.night-drive.txt"]], dir_ "College" [dir_ "Northern Council" [file_ "A1 - Incident.flac", file_ "A2 - The Zemlya Expedition.flac",
    file_ "cover.northern-council.jpg", file_ "vinyl-info.northern-council.txt"], dir_ "Teenage Color" [file_ "A1 - Can You Kiss Me First.flac",
    file_ "A2 - Teenage Color.flac", file_ "vinyl-info.teenage-color.txt"]], dir_ "Electric Youth" [dir_ "Innerworld" [file_ "A1 - Before Life.flac",
    file_ "A2 - Runaway.flac", file_ "vinyl-info.innerworld.txt"]]],
  dir_ "edm" [dir_ "AMBIENT-TECHNO" [dir_ "Amorphous Androgynous" [dir_ "Tales Of Ephidrina" [file_ "01 - Liquid Insects.flac", file_ "02 - Swab.flac",
    file_ "03 - Mountain Goat.flac", file_ "04 - In Mind.flac", file_ "cover.tales-of-ephidrina.jpg"]], dir_ "Aphex Twin" [dir_ "Classics" [file_ "01 - Digeridoo.flac",
    file_ "02 - Flaphead.flac", file_ "03 - Phloam.flac", file_ "04 - Isopropanol.flac", file_ "cover.classics.jpg",
    file_ "vinyl-info.ORTOFON-2M-BLUE.SL1210.DJM500.BALANCE.REASON.SPINCLEAN.MAX-GAIN.txt"], dir_ "Selected Ambient Works 85-92" [file_ "01 - Xtal.flac",
    file_ "02 - Tha.flac", file_ "03 - Pulsewidth.flac", file_ "04 - Ageispolis.flac", file_ "cover.selected-ambient-works-85-92.jpg",
    file_ "vinyl-info.ORTOFON-2M-BLUE.SL1210.DJM500.BALANCE.txt"]], dir_ "Polygon Window" [dir_ "Surfing on Sine Waves" [file_ "01 - Polygon Window.flac",
    file_ "02 - Audax Powder.flac", file_ "03 - Quoth.flac", file_ "04 - If It Really Is Me.flac", file_ "cover.surfing-on-sine-waves.jpg"]]],
    dir_ "ELECTRONICA" [dir_ "Orbital" [dir_ "Diversions" [file_ "01 - Impact USA (The Earth Is Burning- Diversion).flac",
    file_ "02 - Lush 3 (Euro Tunnel Disaster 94) - Walk About (John Peel sessions).flac", file_ "03 - Semi Detached.flac", file_ "04 - Lush 3-5 (C.J. Bolland).flac",
    file_ "cover.diversions.jpg"], dir_ "In Sides" [file_ "01 - The Girl With the Sun in Her Head.flac", file_ "02 - P.E.T.R.O.L..flac",
    file_ "03 - The Box, Part 1.flac", file_ "04 - The Box, Part 2.flac", file_ "cover.in-sides.jpg"], dir_ "Orbital (UK Version)" [file_ "01 - The Moebius.flac",
    file_ "02 - Speed Freak.flac", file_ "03 - Oolaa.flac", file_ "04 - Desert Storm.flac", file_ "cover.orbital-uk-version.jpg"],
    dir_ "Orbital 2 (The Brown Album)" [file_ "01 - Time Becomes.flac", file_ "02 - Planet of the Shapes.flac", file_ "03 - Lush 3-1.flac", file_ "04 - Lush 3-2.flac",
    file_ "cover.orbital-2-the-brown-album.jpg"], dir_ "Snivilisation" [file_ "01 - Forever.flac", file_ "02 - I Wish I Had Duck Feet.flac",
    file_ "03 - Sad but True.flac", file_ "04 - Crash and Carry.flac", file_ "cover.snivilisation.jpg"], dir_ "Wonky" [file_ "01 - One Big Moment.flac",
    file_ "02 - Straight Sun.flac", file_ "03 - Never.flac", file_ "04 - New France.flac", file_ "cover.wonky.jpg"]],
    dir_ "The Chemical Brothers" [dir_ "Exit Planet Dust" [file_ "01 - Leave Home.flac", file_ "02 - In Dust We Trust.flac", file_ "03 - Song to the Siren.flac",
    file_ "04 - Three Little Birdies Down Beats.flac", file_ "accuraterip.chemical brothers.exit planet dust.report.txt", file_ "cover.exit-planet-dust.jpg"],
    dir_ "No Geography" [file_ "1.01 - Eve of Destruction.flac", file_ "1.02 - Bango.flac", file_ "1.03 - No Geography.flac", file_ "2.04 - Got to Keep On.flac",
    file_ "cover.no-geography.jpg"]], dir_ "Underworld" [dir_ "Beaucoup Fish" [file_ "01 - Cups.flac", file_ "02 - Push Upstairs.flac", file_ "03 - Jumbo.flac",
    file_ "04 - Shudder - King of Snake.flac", file_ "cover.beacoup-fish.jpg"], dir_ "Dubnobasswithmyheadman" [file_ "01 - Dark & Long.flac",
    file_ "02 - Mmm Skyscraper I Love You.flac", file_ "03 - Surfboy.flac", file_ "04 - Spoonman.flac", file_ "cover.dubnobasswithmyheadman.jpg",
    file_ "vinyl-info.ORTOFON-2M-BLUE.SL1210.YAMAHA-AX-10.BALANCE.REASON.SPINCLEAN.MAX-GAIN.txt"], dir_ "Pearls Girl" [file_ "01 - Pearls Girl (Tin There).flac",
    file_ "02 - Pearls Girl (14996 version).flac", file_ "03 - Puppies.flac", file_ "04 - Oich Oich.flac", file_ "cover.pearls-girl.jpg"],
    dir_ "Second Toughest in the Infants" [file_ "1.01 - Juanita - Kiteless - To Dream of Love.flac", file_ "1.02 - Banstyle - Sappys Curry.flac",
    file_ "1.03 - Confusion the Waitress.flac", file_ "1.04 - Rowla.flac", file_ "cover.second-toughest-in-the-infants.jpg",
    file_ "vinyl-info.ORTOFON-2M-BLUE.SL1210.YAMAHA-AX-10.BALANCE.REASON.MAX-GAIN.txt"]]],
    dir_ "MINIMAL-TECHNO" [dir_ "FUSE" [dir_ "Dimension Intrusion" [file_ "01 - A New Day.flac", file_ "02 - F.U..flac", file_ "03 - Siac.flac",
    file_ "04 - Dimension Intrusion.flac", file_ "fuse.dimensions.gif", file_ "fuse.dimensions.jpg"], dir_ "Train Trac" [file_ "01 - Train-Trac (Train-Abuse).flac",
    file_ "02 - Train-Trac (Kaboose).flac", file_ "03 - Train-Trac (Drum-Trac 2).flac", file_ "04 - Train-Trac (Bajack).flac",
    file_ "cover.dimension illusion.fuse.jpg"]], dir_ "Plastikman" [dir_ "Closer" [file_ "01 - Ask Yourself.flac", file_ "02 - Mind Encode.flac", file_ "03 - Lost.flac",
    file_ "04 - Disconnect.flac", file_ "cover.closer.jpg"], dir_ "Consumed" [file_ "A1 - Contain.mp3", file_ "B1 - In Side.mp3", file_ "C1 - Locomotion.mp3",
    file_ "D1 - Car Ten.mp3", file_ "cover.consumed.jpg"], dir_ "Musik" [file_ "01 - Konception.flac", file_ "02 - Plastique.flac", file_ "03 - Kriket.flac",
    file_ "04 - Fuk.flac", file_ "cover.musik.jpg"], dir_ "Sheet One" [file_ "01 - Dre.flac", file_ "02 - Plasticity.flac", file_ "03 - Gak.flac", file_ "04 - Okx.flac",
    file_ "Folder.jpg", file_ "cover.sheet-one.jpg"]]], file_ "_segments.def.infex.txt", file_ "_segments.edm.infex.txt"]]
def disk_retroEdm : Disk := fun p => if p.head? = some "." then diskOf [] tree_retroEdm p else diskOf [] tree_retroEdm ("." :: p)

/-- hanno.Nuxx(verbose, "rock"). -/
def tree_rock : FS := dir_ "." [
  dir_ "rock" [dir_ "GOTHIC-ROCK" [dir_ "Fields Of The Nephilim" [dir_ "Ceromonies Ad Mortem Ad Vitam" [file_ "1.01 - Shroud (Exordium).flac",
    file_ "1.02 - Straight to the Light.flac", file_ "1.03 - From the Fire.flac", file_ "1.04 - Penetration.flac", file_ "cover.ceremonies-ad-mortem-ad-vitam.jpg",
    file_ "vinyl-info.ORTOFON-2M-BLUE.SL1210.YAMAHA-AX-10.BALANCE.REASON.SPINCLEAN.MAX-GAIN.txt"],
    dir_ "Earth Inferno" [file_ "01 - For Her Light - At The Gates Of Silent Memory (Paradise Regained).flac", file_ "02 - Moonchild.flac", file_ "03 - Submission.flac",
    file_ "04 - Preacher Man.flac", file_ "cover.earth-inferno.jpg"], dir_ "Elizium" [file_ "01 - (Dead but Dreaming).flac", file_ "02 - For Her Light.flac",
    file_ "03 - At the Gates of Silent Memory.flac", file_ "04 - (Paradise Regained).flac", file_ "accuraterip.fields of the nephilim.elizium.report.txt",
    file_ "cover.elizium.jpg"], dir_ "From Gehenna to Here" [file_ "01 - Trees Come Down.flac", file_ "02 - Back in Gehenna.flac", file_ "03 - Darkcell.flac",
    file_ "04 - Laura.flac", file_ "accuraterip.fields of the nephilim.from gehenna to here.report.txt", file_ "cover.from-gehenna-to-here.jpg"],
    dir_ "Mourning Sun" [file_ "01 - Shroud (Exordium).flac", file_ "02 - Straight to the Light.flac", file_ "03 - New Gold Dawn.flac",
    file_ "04 - Requiem (Le veilleur silencieux).flac", file_ "back.jpg", file_ "cover.mourning-sun.jpg"], dir_ "The Nephilim" [file_ "01 - Endemoniada.flac",
    file_ "02 - The Watchman.flac", file_ "03 - Phobia.flac", file_ "04 - Moonchild.flac", file_ "cover.the-nephilim.jpg",
    file_ "vinyl-info.ORTOFON-2M-BLUE.SL1210.DJM500.BALANCE.REASON.SPINCLEAN.MAX-GAIN.txt"]]],
    dir_ "INDIE-ROCK" [dir_ "All About Eve" [dir_ "All About Eve" [file_ "01 - Flowers In Our Hair.flac", file_ "02 - Gypsy Dance.flac", file_ "03 - In the Clouds.flac",
    file_ "04 - Marthas Harbour.flac", file_ "cover.all-about-eve.jpg"], dir_ "Scarlet And Other Stories" [file_ "01 - Road To Your Soul.flac",
    file_ "02 - Dream Now.flac", file_ "03 - Gold And Silver.flac", file_ "04 - Scarlet.flac", file_ "cover.scarlet-and-other-stories.jpg"],
    dir_ "Touched by Jesus" [file_ "01 - Strange Way.flac", file_ "02 - Farewell Mr Sorrow.flac", file_ "03 - Wishing the Hours Away.flac",
    file_ "04 - Touched by Jesus.flac", file_ "cover.touched-by-jesus.jpg"], dir_ "Ultraviolet" [file_ "01 - Phased.flac", file_ "02 - Yesterday Goodbye.flac",
    file_ "03 - Mine.flac", file_ "04 - Freeze.flac", file_ "cover.ultraviolet.jpg"]], dir_ "New Model Army" [dir_ "Impurity" [file_ "01 - Get Me Out.flac",
    file_ "02 - Space.flac", file_ "03 - Innocence.flac", file_ "04 - Purity.flac", file_ "back.jpg", file_ "cover.impurity.jpg"],
    dir_ "No Rest for the Wicked" [file_ "01 - Frightened.flac", file_ "02 - Ambition.flac", file_ "03 - Grandmothers Footsteps.flac", file_ "04 - Better Than Them.flac",
    file_ "accuraterip.new model army.no rest for the wicked.report.txt", file_ "cover.no-rest-for-the-wicked.jpg"],
    dir_ "Thunder And Consolation" [file_ "01 - I Love The World.flac", file_ "02 - Stupid Questions.flac", file_ "03 - 225.flac", file_ "04 - Inheritance.flac",
    file_ "cover.thunder-and-consolation.jpg"]], dir_ "Radiohead" [dir_ "A Moon Shaped Pool" [file_ "1.01 - Burn the Witch.flac", file_ "1.02 - Daydreaming.flac",
    file_ "1.03 - Decks Dark.flac", file_ "1.04 - Desert Island Disk.flac", file_ "cove-a-moon-shaped-pool.jpg",
    file_ "vinyl-info.ORTOFON-2M-BLUE.SL1210.YAMAHA-AX-10.BALANCE.REASON.MAX-GAIN.txt"], dir_ "Amnesiac" [file_ "1.01 - Packt Like Sardines in a Crushd Tin Box.flac",
    file_ "1.02 - Pyramid Song.flac", file_ "1.03 - Pulk-Pull Revolving Doors.flac", file_ "1.04 - You and Whose Army.flac", file_ "cover.amnesiac.jpg",
    file_ "vinyl-info.ORTOFON-2M-BLUE.SL1210.YAMAHA-AX-10.BALANCE.REASON.MAX-GAIN.txt"],
    dir_ "Hail to the Thief. (The Gloaming.)" [file_ "01 - 2 + 2 = 5 (The Lukewarm.).flac", file_ "02 - Sit Down. Stand Up. (Snakes & Ladders.).flac",
    file_ "03 - Sail to the Moon. (Brush the Cobwebs Out of the Sky.).flac", file_ "04 - Backdrifts. (Honeymoon Is Over.).flac",
    file_ "accuraterip.radiohead.hail to the thief.report.txt", file_ "cover.hail-to-the-thief.jpg"], dir_ "In Rainbows" [file_ "01 - 15 Step.flac",
    file_ "02 - Bodysnatchers.flac", file_ "03 - Nude.flac", file_ "04 - Weird Fishes-Arpeggi.flac", file_ "cover.in-rainbows.jpg",
    file_ "vinyl-info.ORTOFON-2M-BLUE.SL1210.YAMAHA-AX-10.BALANCE.REASON.MAX-GAIN.txt"], dir_ "Kid A" [file_ "1.01 - Everything in Its Right Place.flac",
    file_ "1.02 - Kid A.flac", file_ "1.03 - The National Anthem.flac", file_ "1.04 - How to Disappear Completely.flac", file_ "cover.kid-a.jpg",
    file_ "vinyl-info.ORTOFON-2M-BLUE.SL1210.YAMAHA-AX-10.BALANCE.REASON.MAX-GAIN.txt"], dir_ "OK Computer" [file_ "01 - Airbag.flac", file_ "02 - Paranoid Android.flac",
    file_ "03 - Subterranean Homesick Alien.flac", file_ "04 - Exit Music (for a Film).flac", file_ "accuraterip.radiohead.ok computer.report.txt",
    file_ "cover.ok-computer.jpg"]]], dir_ "PROGRESSIVE-ROCK" [dir_ "Marillion" [dir_ "Clutching At Straws" [file_ "01 - Hotel Hobbies.flac",
    file_ "02 - Warm Wet Circles.flac", file_ "03 - That Time Of The Night (The Short Straw).flac", file_ "04 - Just For The Record.flac",
    file_ "Marillion - Tourbook - Clutching At Straws - Winter Of 1987-88 01.jpg", file_ "cover-clutching-at-straws.jpg", file_ "front.jpg",
    file_ "vinyl-info.ORTOFON-2M-BLUE.SL1210.DJM500.BALANCE.REASON.SPINCLEAN.MAX-GAIN.txt"], dir_ "Fugazi" [file_ "01 - Assassing.flac", file_ "02 - Punch & Judy.flac",
    file_ "03 - Jigsaw.flac", file_ "04 - Emerald Lies.flac", file_ "cover.fugazi.jpg"], dir_ "Misplaced Childhood" [file_ "01 - Pseudo Silk Kimono.flac",
    file_ "02 - Kayleigh.flac", file_ "03 - Lavender.flac", file_ "04 - Bitter Suite - I Brief Encounter, II Lost Weekend, III Blue Angel.flac",
    file_ "cover.misplaced-childhood.jpg"], dir_ "Script for a Jesters Tear" [file_ "01 - Script for a Jesters Tear.flac", file_ "02 - He Knows You Know.flac",
    file_ "03 - The Web.flac", file_ "04 - Garden Party.flac", file_ "cover.script-for-a-jesters-tear.jpg"]],
    dir_ "Pink Floyd" [dir_ "A Momentary Lapse of Reason" [file_ "01 - Signs of Life.flac", file_ "02 - Learning to Fly.flac", file_ "03 - The Dogs of War.flac",
    file_ "04 - One Slip.flac", file_ "accuraterip_pink-floyd_a-momentary-lapse-of-reason_report-txt", file_ "back-jpg", file_ "cover.a-momentary-lapse-of-reason.jpg"],
    dir_ "The Dark Side Of The Moon" [file_ "1.01 - Speak To Me.flac", file_ "1.02 - Breathe (In The Air).flac", file_ "1.03 - On The Run.flac", file_ "1.04 - Time.flac",
    file_ "accuraterip_pink-floyd_dark-side-of-the-moon_disc_1_report-txt", file_ "cover.the-dark-side-of-the-moon.jpg"],
    dir_ "The Wall" [file_ "1.01 - In The Flesh.flac", file_ "1.02 - The Thin Ice.flac", file_ "1.03 - Another Brick In The Wall (Part 1).flac",
    file_ "1.04 - The Happiest Days Of Our Lives.flac", file_ "cover.the-wall.jpg"],
    dir_ "Wish You Were Here" [file_ "1.01 - Shine On You Crazy Diamond (parts I-V).flac", file_ "1.02 - Welcome To The Machine.flac", file_ "1.03 - Have A Cigar.flac",
    file_ "1.04 - Wish You Were Here.flac", file_ "accuraterip_pink-floyd_wish-you-were-here_disc-1_report-txt", file_ "cover.wish-you-were-here.jpg"]]],
    file_ "_segments.rock.def.infex.txt", file_ "_segments.rock.dynamic.infex.txt",
    dir_ "metal" [dir_ "HARD-METAL" [dir_ "Def Leppard" [dir_ "Hysteria" [file_ "01 - Women.flac", file_ "02 - Rocket.flac", file_ "03 - Animal.flac",
    file_ "04 - Love Bites.flac", file_ "back.jpg", file_ "cover.hysteria.jpg"], dir_ "On Through the Night" [file_ "01 - Rock Brigade.flac",
    file_ "02 - Hello America.flac", file_ "03 - Sorrow Is a Woman.flac", file_ "04 - It Could Be You.flac", file_ "cover.on-through-the-night.jpg"],
    dir_ "Pyromania" [file_ "01 - Rock! Rock! (Till You Drop).flac", file_ "02 - Photograph.flac", file_ "03 - Stagefright.flac", file_ "04 - Too Late for Love.flac",
    file_ "cover.pyromania.jpg"]], dir_ "Van Halen" [dir_ "1984" [file_ "01 - 1984.flac", file_ "02 - Jump.flac", file_ "03 - Panama.flac", file_ "04 - Top Jimmy.flac",
    file_ "cover.1984.jpg", file_ "vinyl-info.ORTOFON-2M-BLUE.SL1210.DJM500.BALANCE.REASON.SPINCLEAN.MAX-GAIN.txt"],
    dir_ "Van Halen" [file_ "01 - Runnin With The Devil.flac", file_ "02 - Eruption.flac", file_ "03 - You Really Got Me.flac", file_ "04 - Aint Talkin Bout Love.flac",
    file_ "cover.van halen.jpg", file_ "cover.van-halen.jpg", file_ "coverb.van halen.van halen.album.jpg", file_ "info.van halen.van halen.album.jpg",
    file_ "inside.van halen.van halen.album.jpg", file_ "tracklist.van halen.van halen.album.jpg", file_ "vinyl-info.ORTOFON-2M-BLUE.SL1210.DJM500.BALANCE.txt"]],
    dir_ "Whitesnake" [dir_ "1987 25th Anniversary Edition" [file_ "01 - Still Of The Night.flac", file_ "02 - Give Me All Your Love.flac", file_ "03 - Bad Boys.flac",
    file_ "04 - Is This Love.flac", file_ "cover.1987-25th-anniversary.jpg", file_ "vinyl-info.ORTOFON-2M-BLUE.SL1210.DJM500.BALANCE.txt"],
    dir_ "Slip Of The Tongue" [file_ "01 - Slip Of The Tongue.flac", file_ "02 - Judgement Day.flac", file_ "03 - Fool For Your Loving.flac",
    file_ "04 - Now Youre Gone.flac", file_ "back.jpg", file_ "cover.slip-of-the-tongue.jpg", file_ "vinyl-info.ORTOFON-2M-BLUE.SL1210.DJM500.BALANCE.txt"]]],
    file_ "_segments.def.infex.txt", dir_ "dark" [dir_ "HEAVY-METAL" [dir_ "Black Sabbath" [dir_ "Heaven and Hell" [file_ "01 - Neon Knights.flac",
    file_ "02 - Children of the Sea.flac", file_ "03 - Lady Evil.flac", file_ "04 - Heaven and Hell.flac", file_ "cover.heaven-and-hell.jpg",
    file_ "vinyl-info.ORTOFON-2M-BLUE.SL1210.DJM500.BALANCE.REASON.SPINCLEAN.MAX-GAIN.txt"], dir_ "Mob Rules" [file_ "01 - Turn Up The Night.flac",
    file_ "02 - Voodoo.flac", file_ "03 - The Sign Of The Southern Cross.flac", file_ "04 - E5150.flac", file_ "accuraterip.black sabbath.mob rules.report.txt",
    file_ "back.jpg", file_ "cover.mob-rules.jpg"]], dir_ "Iron Maiden" [dir_ "Killers" [file_ "01 - The Ides of March.flac", file_ "02 - Wrathchild.flac",
    file_ "03 - Murders in the Rue Morgue.flac", file_ "04 - Another Life.flac", file_ "cover.killers.jpg"], dir_ "Piece Of Mind" [file_ "01 - Where Eagles Dare.flac",
    file_ "02 - Revelations.flac", file_ "03 - Flight of Icarus.flac", file_ "04 - Die With Your Boots On.flac", file_ "cover.peace-of-mind.jpg",
    file_ "vinyl-info.ORTOFON-2M-BLUE.SL1210.DJM500.BALANCE.REASON.SPINCLEAN.MAX-GAIN.txt"], dir_ "Somewhere In Time" [file_ "01 - Caught Somewhere In Time.flac",
    file_ "02 - Wasted Years.flac", file_ "03 - Sea Of Madness.flac", file_ "04 - Heaven Can Wait.flac", file_ "cover.somewhere-in-time.jpg"],
    dir_ "The Number of the Beast" [file_ "01 - Invaders.flac", file_ "02 - Children of the Damned.flac", file_ "03 - The Prisoner.flac",
    file_ "04 - 22 Acacia Avenue.flac", file_ "cover.the-number-of-the-beast.jpg"]],
    dir_ "Mötley Crüe" [dir_ "Dr Feelgood" [file_ "1.01 - T.N.T. (Terror n Tinseltown).flac", file_ "1.02 - Dr. Feelgood.flac", file_ "1.03 - Slice of Your Pie.flac",
    file_ "1.04 - Rattlesnake Shake.flac", file_ "cover.dr-feelgood.jpg", file_ "vinyl-info.ORTOFON-2M-BLUE.SL1210.YAMAHA-AX-10.BALANCE.REASON.MAX-GAIN.txt"],
    dir_ "Shout at the Devil" [file_ "01 - In The Beginning.flac", file_ "02 - Shout at the Devil.flac", file_ "03 - Looks That Kill.flac", file_ "04 - Bastard.flac",
    file_ "MyTag.Motley Crue.Shout at the Devil.txt", file_ "cover.shout-at-the-devil.jpg",
    file_ "vinyl-info.ORTOFON-2M-BLUE.SL1210.DJM500.BALANCE.REASON.SPINCLEAN.MAX-GAIN.txt"], dir_ "Theatre of Pain" [file_ "01 - City Boy Blues.flac",
    file_ "02 - Smokin in the Boys Room.flac", file_ "03 - Louder Than Hell.flac", file_ "04 - Keep Your Eye on the Money.flac", file_ "cover.theatre-of-pain.jpg",
    file_ "vinyl-info.ORTOFON-2M-BLUE.SL1210.DJM500.BALANCE.REASON.SPINCLEAN.MAX-GAIN.txt"]],
    dir_ "Ozzy Osbourne" [dir_ "Bark At The Moon" [file_ "01 - Rock N Roll Rebel.flac", file_ "02 - Bark At The Moon.flac", file_ "03 - Youre No Different.flac",
    file_ "04 - Now You See It (Now You Dont).flac", file_ "cover.bark-at-the-moon.jpg",
    file_ "vinyl-info.ORTOFON-2M-BLUE.SL1210.DJM500.BALANCE.REASON.SPINCLEAN.MAX-GAIN.txt"], dir_ "Blizzard Of Ozz" [file_ "01 - I Dont Know.flac",
    file_ "02 - Crazy Train.flac", file_ "03 - Goodbye To Romance.flac", file_ "04 - Dee.flac", file_ "cover.blizzard-of-ozz.jpg",
    file_ "vinyl-info.ORTOFON-2M-BLUE.SL1210.DJM500.BALANCE.REASON.SPINCLEAN.MAX-GAIN.txt"], dir_ "The Ultimate Sin" [file_ "01 - The Ultimate Sin.flac",
    file_ "02 - Secret Loser.flac", file_ "03 - Never Know Why.flac", file_ "04 - Thank God For The Bomb.flac", file_ "cover.the-ultimate-sin.jpg",
    file_ "vinyl-info.ORTOFON-2M-BLUE.SL1210.DJM500.BALANCE.REASON.SPINCLEAN.MAX-GAIN.txt"]]],
    dir_ "THRASH-METAL" [dir_ "Megadeth" [dir_ "Peace Sells But Whos Buying" [file_ "01 - Wake Up Dead.flac", file_ "02 - The Conjuring.flac",
    file_ "03 - Peace Sells.flac", file_ "04 - Devils Island.flac", file_ "MyTag.Megadeth.Peace Sells...But Whos Buying.txt",
    file_ "cover.peace-sells-but-whos-buying.jpg", file_ "vinyl-info.ORTOFON-2M-BLUE.SL1210.DJM500.BALANCE.REASON.SPINCLEAN.MAX-GAIN.txt"],
    dir_ "Rust In Peace" [file_ "01 - Holy Wars...The Punishment Due.flac", file_ "02 - Hangar 18.flac", file_ "03 - Take No Prisoners.flac",
    file_ "04 - Five Magics.flac", file_ "cove.rust-in-peace.jpg", file_ "vinyl-info.ORTOFON-2M-BLUE.SL1210.DJM500.BALANCE.REASON.SPINCLEAN.MAX-GAIN.txt"],
    dir_ "So Far, So Good ... So What!" [file_ "01 - Into The Lungs Of Hell.flac", file_ "02 - Set The World Afire.flac", file_ "03 - Anarchy In The UK.flac",
    file_ "04 - Mary Jane.flac", file_ "cover.so-far-so-good-so-what.jpg", file_ "vinyl-info.ORTOFON-2M-BLUE.SL1210.DJM500.BALANCE.REASON.SPINCLEAN.MAX-GAIN.txt"]],
    dir_ "Metallica" [dir_ "Master of Puppets" [file_ "01 - Battery.flac", file_ "02 - Master of Puppets.flac", file_ "03 - The Thing That Should Not Be.flac",
    file_ "04 - Welcome Home (Sanitarium).flac", file_ "cover.master-of-puppets.jpg"], dir_ "Ride the Lightning" [file_ "01 - Fight Fire With Fire.flac",
    file_ "02 - Ride the Lightning.flac", file_ "03 - For Whom the Bell Tolls.flac", file_ "04 - Fade to Black.flac",
    file_ "accuraterip.metallica.ride the lightning.report.txt", file_ "cover.ride-the-lightning.jpg"], dir_ "The Black Album" [file_ "1.01 - Enter Sandman.flac",
    file_ "1.02 - Sad But True.flac", file_ "1.03 - Holier Than Thou.flac", file_ "2.01 - The Unforgiven.flac", file_ "cover.the-black-album.jpg",
    file_ "vinyl-info.ORTOFON-2M-BLUE.SL1210.YAMAHA-AX-10.BALANCE.REASON.SPINCLEAN.MAX-GAIN.txt"]],
    dir_ "Slayer" [dir_ "South of Heaven" [file_ "01 - South of Heaven.flac", file_ "02 - Silent Scream.flac", file_ "03 - Live Undead.flac",
    file_ "04 - Behind the Crooked Cross.flac", file_ "cover.south-of-heaven.jpg"]]], file_ "_segments.def.infex.txt"]]]]
def disk_rock : Disk := fun p => if p.head? = some "." then diskOf [] tree_rock p else diskOf [] tree_rock ("." :: p)

/-- hanno.Nuxx(verbose, "RETRO-WAVE", "PROGRESSIVE-HOUSE"). -/
def tree_retroHouse : FS := dir_ "." [
  dir_ "PROGRESSIVE-HOUSE" [dir_ "Blue Amazon" [dir_ "Long Way Home (Vinyl Single)" [file_ "01 - Long Way Home (Blue Amazons Trip TV Mix).flac",
    file_ "02 - Long Way Home (Kayestone Remix).flac", file_ "cover.long-way-home.jpg"], dir_ "The Javelin" [file_ "01 - Intro.flac", file_ "02 - Never Forget.flac",
    file_ "03 - Searching.flac", file_ "04 - The Runner.flac", file_ "accuraterip.blue amazon.the javelin.report.txt", file_ "cover.the-javelin.jpg"]],
    dir_ "Halo Varga" [dir_ "Future! (Disk One) (Vinyl Single)" [file_ "1.01 - Future! (original mix).flac", file_ "1.02 - Future! (16B remix).flac",
    file_ "cover.future.jpg"], dir_ "Future! (Single)" [file_ "01 - Future! (Original Mix).flac", file_ "02 - Future! (16B Remix).flac",
    file_ "03 - Future! (Three N One presents 16C+ Remix).flac", file_ "04 - Future! (Jaimy & Kenny D Remix).flac", file_ "accuraterip.halo varga.future.report.txt",
    file_ "cover.future.jpg"]],
    dir_ "Jam & Spoon" [dir_ "Stella 1999-1992- How Stella Got Her Groove Back (Single)" [file_ "01 - How Stella Got Her Groove Back (video-radio mix).flac",
    file_ "02 - How Stella Got Her Groove Back (Storm mix).flac", file_ "03 - How Stella Got Her Groove Back (Return of Stella 99 - Jam & Spoon mix).flac",
    file_ "04 - How Stella Got Her Groove Back (Nalin & Kane mix).flac", file_ "accuraterip.jam & spoon.stella 1999-1992 - how stella got her groove back.report.txt",
    file_ "cover.stella.jpg"], dir_ "Tripomatic Fairytales" [file_ "01 - Heart Of Africa.flac", file_ "02 - Odyssey To Anyoona.flac",
    file_ "03 - Two Spys In The House Of Love.flac", file_ "04 - Stella.flac", file_ "MyTag.Jam & Spoon.Tripomatic Fairytales 2001.txt",
    file_ "cover.tripomatic-fairytales.jpg", file_ "vinyl-info.ORTOFON-2M-BLUE.SL1210.DJM500.BALANCE.REASON.SPINCLEAN.MAX-GAIN.txt"]],
    dir_ "Sasha" [dir_ "Airdrawndagger" [file_ "01 - Drempels.flac", file_ "02 - Mr Tiddles.flac", file_ "03 - Magnetic North.flac", file_ "04 - Cloud Cuckoo.flac",
    file_ "cover.airdrawndagger.jpg"], dir_ "Fundacion NYC" [file_ "01 - Rise of the Machine.flac", file_ "02 - Four Squares.flac",
    file_ "03 - Another Way (Richard Davies mix).flac", file_ "04 - Tides (feat. Bajka) (Cs Movement #1) (Carl Craig remix).flac",
    file_ "accuraterip.sasha.fundacion nyc.report.txt", file_ "cover.fundacion-nyc.jpg"], dir_ "Involver" [file_ "01 - Talk Amongst Yourselves.flac",
    file_ "02 - Dorset Perception.flac", file_ "03 - These Days.flac", file_ "04 - What Are You to Me.flac", file_ "accuraterip.sasha.involver.report.txt",
    file_ "cover.involver.jpg"]]],
  dir_ "RETRO-WAVE" [dir_ "Chromatics" [dir_ "Night Drive" [file_ "A1 - The Telephone Call.flac", file_ "A2 - Night Drive.flac", file_ "cover.night-drive.jpg",
    file_ "vinyl-info.night-drive.txt"]], dir_ "College" [dir_ "Northern Council" [file_ "A1 - Incident.flac", file_ "A2 - The Zemlya Expedition.flac",
    file_ "cover.northern-council.jpg", file_ "vinyl-info.northern-council.txt"], dir_ "Teenage Color" [file_ "A1 - Can You Kiss Me First.flac",
    file_ "A2 - Teenage Color.flac", file_ "vinyl-info.teenage-color.txt"]], dir_ "Electric Youth" [dir_ "Innerworld" [file_ "A1 - Before Life.flac",
    file_ "A2 - Runaway.flac", file_ "vinyl-info.innerworld.txt"]]]]
def disk_retroHouse : Disk := fun p => if p.head? = some "." then diskOf [] tree_retroHouse p else diskOf [] tree_retroHouse ("." :: p)

/-! ### The tables -/

/-- An entry of a table of the tests: the session, and what lab.AssertNavigation (internal/laboratory/assert.go:26-105) and the callbacks expect of it. -/
structure Case where
  disk : Disk
  tree : Path
  sub : Subscription
  options : List (With Nat) := []
  /-- ExpectedErr. -/
  error : Option FilterErr := none
  /-- Whether the metrics are looked at, and ExpectedNoOf. -/
  counts : Bool := true
  files : Nat := 0
  dirs : Nat := 0
  children : List (String × Nat) := []
  mandatory : List String := []
  prohibited : List String := []
  /-- No name is seen twice. -/
  once : Bool := false
  /-- Everything below the tree is seen that is subscribed to. -/
  visit : Bool := false
  /-- One directory is seen before the other. -/
  before : Option (Path × Path) := none

def Case.report (c : Case) : Report Nat :=
  walkPrime platform (.using { tree := c.tree, sub := c.sub, handler := some (fun k _ => (k, .ok none)) })
    (settingsOf platform (c.options.map some)) c.disk 0

/-- The paths of what is subscribed to (assert.go:107-115, without the root of Nuxx itself). -/
def wanted (sub : Subscription) (pre : Path) : FS → List Path
  | .file n _ _ => if sub = .files ∨ sub = .universal then [pre ++ [n]] else []
  | .dir n _ _ kids => (if sub = .files then [] else [pre ++ [n]]) ++ wantedAll sub (pre ++ [n]) kids
where
  wantedAll (sub : Subscription) (pre : Path) : List FS → List Path
    | [] => []
    | k :: ks => wanted sub pre k ++ wantedAll sub pre ks

/-- The test passes. -/
def Case.ok (c : Case) : Bool :=
  let r := c.report
  match c.error with
  | some e => decide (r.verdict = .unbuilt (.filter e))
  | none =>
    let recall := r.hits.map (fun h => (h.parcel.node.name, h.parcel.children.length))
    let paths := r.hits.map (fun h => h.parcel.node.path)
    decide (r.verdict = .done none) && c.children.all recall.contains && c.mandatory.all (recall.map Prod.fst).contains
      && !c.prohibited.any (recall.map Prod.fst).contains
      && (!c.counts || (r.metrics .filesInvoked).getD 0 == c.files && (r.metrics .dirsInvoked).getD 0 == c.dirs
        && (r.metrics .childFound).getD 0 == (c.children.map Prod.snd).sum)
      && (!c.once || decide (recall.map Prod.fst).Nodup)
      && (!c.visit || match c.disk c.tree with | .ok fs => (wanted c.sub c.tree.dropLast fs).all paths.contains | .error _ => false)
      && (match c.before with | some (a, b) => (paths.takeWhile (· != b)).contains a && paths.contains b | none => true)

/-- The profiles' `prohibited` of profiles_test.go:39-53. -/
def skipped : List String := ["RETRO-WAVE", "Chromatics", "Night Drive", "A1 - The Telephone Call.flac", "A2 - Night Drive.flac", "cover.night-drive.jpg",
    "vinyl-info.night-drive.txt", "College", "Northern Council", "A1 - Incident.flac", "A2 - The Zemlya Expedition.flac", "cover.northern-council.jpg",
    "vinyl-info.northern-council.txt"]

/-- An entry of the table of resume_test.go: the document as the test's loader leaves it. -/
structure Again where
  doc : Json
  strategy : Strategy
  mandatory : List String
  prohibited : List String

def Again.report (c : Again) : Report Nat :=
  walkResumeAny platform (.relic { handler := some (fun k _ => (k, .ok none)), «from» := "resume-state.json", strategy := c.strategy, forest := some (fun _ => some (true,
    false)) })
    (settingsOf platform [some (.on .begin (fun _ k => k + 1))]) (fun _ => .ok c.doc) disk_retro 0

/-- The test passes: on a fastward resume the Begin listener is not called. -/
def Again.ok (c : Again) : Bool :=
  let r := c.report
  let names := r.hits.map (fun h => h.parcel.node.name)
  decide (r.verdict = .done none) && c.mandatory.all names.contains && !c.prohibited.any names.contains && decide names.Nodup
    && (r.client == 0 || c.strategy != .fastward)

/-- test/json/unmarshal/resume-state.json with the state as the loader of a test changes it. -/
def document (tree current : Path) (relative : Bool × Bool) (sub hibernation depth : Nat) : Json := .obj [("JO", .obj [("Behaviours", .obj [("SubPath",
    .obj [("KeepTrailingSep", .bool true)]), ("Sort", .obj [("IsCaseSensitive", .bool false), ("SortFilesFirst", .bool false)]), ("Cascade", .obj [("Depth", .num 4),
    ("NoRecurse", .bool false)])]), ("Sampling", .obj [("sample-type", .num 0), ("in-reverse", .bool false), ("NoOf", .obj [("no-of-files", .num 0), ("no-of-directories",
    .num 0)])]), ("Filter", .obj [("Node", .null), ("Child", .null), ("Sample", .null)]), ("Hibernate", .obj [("WakeAt", .null), ("SleepAt", .null), ("Behaviour",
    .obj [("hibernate-inclusive-wake", .bool true), ("hibernate-inclusive-sleep", .bool false)])]), ("Concurrency", .obj [("no-of-workers", .num 8)])]), ("Active",
    .obj [("Tree", .path tree), ("TraverseDescription", .obj [("IsRelative", .bool relative.1)]), ("ResumeDescription", .obj [("IsRelative", .bool relative.2)]),
    ("Subscription", .nat sub), ("Hibernation", .nat hibernation), ("CurrentPath", .path current), ("IsDir", .bool true), ("Depth", .nat depth), ("Metrics", .obj [("1",
    .obj [("T", .num 1), ("Counter", .num 10)]), ("2", .obj [("T", .num 2), ("Counter", .num 20)]), ("3", .obj [("T", .num 3), ("Counter", .num 30)]), ("4", .obj [("T",
    .num 4), ("Counter", .num 40)])])])]

end Traverse.Conform

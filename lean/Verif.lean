import Verif.Props.C01
import Verif.Props.C02
import Verif.Props.C03
import Verif.Props.C16
import Verif.Props.C17
import Verif.Props.C18
import Verif.Props.C19
import Verif.Props.C20
import Verif.Props.C36
import Verif.Props.C37
import Verif.Props.C38
import Verif.Props.C39
import Verif.Props.C40
import Verif.Props.C40Mod
import Verif.Props.C41
import Verif.Props.C42
import Verif.Props.C43
import Verif.Props.C44
import Verif.Props.C45
import Verif.Props.C47
import Verif.Props.C05
import Verif.Props.C06
import Verif.Props.C07
import Verif.Props.C08
import Verif.Props.C09
import Verif.Props.C10
import Verif.Props.C11
import Verif.Props.C12
import Verif.Props.C52
import Verif.Props.C53
import Verif.Props.C13
import Verif.Props.C14
import Verif.Props.C15
import Verif.Props.C21
import Verif.Props.C22
import Verif.Props.C04
import Verif.Props.C26
import Verif.Props.C27
import Verif.Props.C28
import Verif.Props.C23
import Verif.Props.C24
import Verif.Props.C25
import Verif.Props.C56
import Verif.Props.C38Schnorr
import Verif.Props.C29
import Verif.Props.C30
import Verif.Props.C31
import Verif.Props.C35
import Verif.Props.C32
import Verif.Props.C33
import Verif.Props.C34
import Verif.Props.C38Musig
import Verif.Props.C41All
import Verif.Props.C54
import Verif.Props.C55
import Verif.Props.C57
import Verif.Props.C46
import Verif.Props.C58
import Verif.Props.C48
import Verif.Props.C49
import Verif.Props.C50
import Verif.Props.C51
import Verif.Props.C59
import Verif.Props.C60
import Verif.Props.C61
import Verif.Props.C62
import Verif.Props.C63
import Verif.Props.C64
import Verif.Props.C65
import Verif.Props.C66
import Verif.Props.C67
import Verif.Props.C68
import Verif.Props.C69
import Verif.Props.C70
import Verif.Props.C71
import Verif.Props.C72
import Verif.Props.C73
import Verif.Props.C74
import Verif.Props.C75
import Verif.Props.C76
import Verif.Props.C77
import Verif.Props.C78
import Verif.Props.C38Same
import Verif.Props.C79
import Verif.Props.C79Schnorr
import Verif.Props.C79Musig
import Verif.Props.C79MusigMain
import Verif.Props.C80
import Verif.Props.C81
import Verif.Props.C82
import Verif.Props.C83
import Verif.Props.C84
import Verif.Props.C85
import Verif.Props.C86
import Verif.Props.C87
import Verif.Props.C88
import Verif.Props.C89
